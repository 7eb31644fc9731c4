import Verif.Proofs.ObjectsWorld
import Verif.Props.IntSet
import Verif.Props.Prioq
import Verif.Props.ByteArray

/-! The functional objects behave as the specification says, in every legal program. -/

namespace Verif.Objects
open Verif.Owned (returns_bind_inv returns_bind_of)
open Verif.Spec.Objects (Res SetOp QueueOp Src BytesOp Cmd SetStep QueueStep readable text bytesStep bytesOk Step Steps Legal)
set_option autoImplicit false

/-- A functional object and what its user sees. -/
inductive Rep (cmp : Nat → Nat → Int) : Obj → Spec.Objects.Obj → Prop
  | set (s : IntSet.IntSet) (S : Nat → Bool) : IntSet.Rep s S → s.size.toNat ≤ 2 ^ 31 → Rep cmp (.set s) (.set s.size.toNat S)
  | queue (q : Prioq.PQ Nat) (ys : List Nat) : Prioq.Full q ys → Prioq.Heap cmp ys → ys.length ≤ 2 ^ 60 → Rep cmp (.queue q) (.queue ys)
  | bytes (b : BA.BA) (rc : UInt32) : BA.Inv b → 0 < rc.toNat → Rep cmp (.bytes b rc) (.bytes b.maxSize (BA.contents b) rc.toNat)

/-- The same for all objects. -/
structure Good (cmp : Nat → Nat → Int) (w : World) (v : Spec.Objects.World) : Prop where
  len : w.length = v.length
  each : ∀ (i : Nat) (s : Spec.Objects.Obj), v[i]? = some (some s) → ∃ o, w[i]? = some (some o) ∧ Rep cmp o s
  dead : ∀ (i : Nat), v[i]? = some none → w[i]? = some none

variable {cmp : Nat → Nat → Int} {w : World} {v : Spec.Objects.World} {o : Obj} {s : Spec.Objects.Obj}

theorem Good.start : Good cmp [] [] := ⟨rfl, by simp, by simp⟩

theorem Good.add (h : Good cmp w v) (ho : Rep cmp o s) : Good cmp (w ++ [some o]) (v ++ [some s]) := by
  refine ⟨by simp [h.len], fun i s' hi => ?_, fun i hi => ?_⟩
  · rcases Nat.lt_trichotomy i v.length with hl | hl | hl
    · rw [List.getElem?_append_left hl] at hi
      rw [List.getElem?_append_left (by rw [h.len]; exact hl)]
      exact h.each i s' hi
    · subst hl
      simp at hi
      subst hi
      exact ⟨o, by rw [← h.len]; simp, ho⟩
    · rw [List.getElem?_eq_none (by simp; omega)] at hi; cases hi
  · rcases Nat.lt_trichotomy i v.length with hl | hl | hl
    · rw [List.getElem?_append_left hl] at hi
      rw [List.getElem?_append_left (by rw [h.len]; exact hl)]
      exact h.dead i hi
    · subst hl; simp at hi
    · rw [List.getElem?_eq_none (by simp; omega)] at hi; cases hi

theorem Good.change (h : Good cmp w v) (i : Nat) (ho : Rep cmp o s) : Good cmp (w.set i (some o)) (v.set i (some s)) := by
  refine ⟨by simp [h.len], fun j s' hj => ?_, fun j hj => ?_⟩
  · by_cases e : i = j
    · subst e
      by_cases hl : i < v.length
      · rw [List.getElem?_set_self hl] at hj
        cases hj
        exact ⟨o, List.getElem?_set_self (by rw [h.len]; exact hl), ho⟩
      · rw [List.getElem?_eq_none (by simp; omega)] at hj; cases hj
    · rw [List.getElem?_set_ne e] at hj ⊢; exact h.each j s' hj
  · by_cases e : i = j
    · subst e
      by_cases hl : i < v.length
      · rw [List.getElem?_set_self hl] at hj; cases hj
      · rw [List.getElem?_eq_none (by simp; omega)] at hj; cases hj
    · rw [List.getElem?_set_ne e] at hj ⊢; exact h.dead j hj

theorem Good.remove (h : Good cmp w v) (i : Nat) : Good cmp (w.set i none) (v.set i none) := by
  refine ⟨by simp [h.len], fun j s' hj => ?_, fun j hj => ?_⟩
  · by_cases e : i = j
    · subst e
      by_cases hl : i < v.length
      · rw [List.getElem?_set_self hl] at hj; cases hj
      · rw [List.getElem?_eq_none (by simp; omega)] at hj; cases hj
    · rw [List.getElem?_set_ne e] at hj ⊢; exact h.each j s' hj
  · by_cases e : i = j
    · subst e
      by_cases hl : i < v.length
      · exact List.getElem?_set_self (by rw [h.len]; exact hl)
      · rw [List.getElem?_eq_none (by simp; omega)] at hj; cases hj
    · rw [List.getElem?_set_ne e] at hj ⊢; exact h.dead j hj

/-! ### Sets -/

theorem set_sim {s : IntSet.IntSet} {S : Nat → Bool} (h : IntSet.Rep s S) (hn : s.size.toNat ≤ 2 ^ 31) (op : SetOp) :
    ∃ r s' S', Returns (op.fn s) (r, s') ∧ SetStep s.size.toNat S op r S' ∧ IntSet.Rep s' S' ∧ s'.size = s.size := by
  obtain ⟨hw, hb, ho⟩ := id h
  have hit : ∀ e, ∃ r, Returns (IntSet.findNextHit s e) r ∧ Spec.IntSet.IsNext s.size.toNat (fun i => S i = true) e.toNat r := by
    intro e
    obtain ⟨r, hr, hu⟩ := IntSet.findNext_spec s true hw (by omega) e
    exact ⟨r, hr, IntSet.isNext_of_isNextU (IntSet.isNextU_congr hu fun i hi => by rw [hb i hi]) hn⟩
  cases op with
  | add e =>
    obtain ⟨s', h1, h2, h3⟩ := IntSet.step_spec h (by omega) (.add e)
    exact ⟨.unit, s', _, returns_bind_of h1 ((returns_pure _ _).2 rfl), .add e, h3, h2⟩
  | remove e =>
    obtain ⟨s', h1, h2, h3⟩ := IntSet.step_spec h (by omega) (.remove e)
    exact ⟨.unit, s', _, returns_bind_of h1 ((returns_pure _ _).2 rfl), .remove e, h3, h2⟩
  | fill =>
    obtain ⟨s', h1, h2, h3⟩ := IntSet.step_spec h (by omega) .fill
    exact ⟨.unit, s', _, returns_bind_of h1 ((returns_pure _ _).2 rfl), .fill, h3, h2⟩
  | has e =>
    refine ⟨_, s, S, returns_bind_of ((returns_liftC _ _).2 (IntSet.has_spec hw e)) ((returns_pure _ _).2 rfl), ?_, h, rfl⟩
    have : (decide (e.toNat < s.size.toNat) && IntSet.bitAt s e.toNat) = S e.toNat := by
      by_cases hi : e.toNat < s.size.toNat
      · simp [hi, hb _ hi]
      · simp [hi, ho _ (Nat.not_lt.mp hi)]
    rw [this]
    exact .has e
  | nextHit e =>
    obtain ⟨r, hr, hx⟩ := hit e
    exact ⟨_, s, S, returns_bind_of hr ((returns_pure _ _).2 rfl), .nextHit e r hx, h, rfl⟩
  | nextMiss e =>
    obtain ⟨r, hr, hu⟩ := IntSet.findNext_spec s false hw (by omega) e
    exact ⟨_, s, S, returns_bind_of hr ((returns_pure _ _).2 rfl), .nextMiss e r
      (IntSet.isNext_of_isNextU (IntSet.isNextU_congr hu fun i hi => by rw [hb i hi]) hn), h, rfl⟩
  | empty =>
    obtain ⟨r, hr, hx⟩ := hit 0
    have he : Returns (IntSet.empty s) (decide (r < 0)) := by
      unfold IntSet.empty
      rw [Returns, IntSet.run_bind_some hr]
      rfl
    refine ⟨_, s, S, returns_bind_of he ((returns_pure _ _).2 rfl), ?_, h, rfl⟩
    rcases hx with ⟨rfl, hx⟩ | ⟨m, rfl, -, -, h5, -⟩
    · refine .isEmpty fun i => ?_
      by_cases hi : i < s.size.toNat
      · simpa using hx i (by simp) hi
      · exact ho i (Nat.not_lt.mp hi)
    · rw [show decide ((m : Int) < 0) = false by simp]
      exact .notEmpty m h5

/-! ### Priority queues -/

theorem apply_heap (hc : Spec.Prioq.Preorder cmp) {q : Prioq.PQ Nat} {ys : List Nat} (hf : Prioq.Full q ys) (hh : Prioq.Heap cmp ys) (hl : ys.length ≤ 2 ^ 60)
    (op : Spec.Prioq.Op Nat) (hok : Spec.Prioq.okRepeated (ys : Multiset Nat) op) :
    ∃ r q' ys', Returns (Prioq.apply cmp q op) (r, q') ∧ Prioq.Full q' ys' ∧ Prioq.Heap cmp ys' ∧ ys'.length ≤ 2 ^ 60 ∧
      Spec.Prioq.Step (fun a b => cmp a b ≤ 0) (ys : Multiset Nat) op r (ys' : Multiset Nat) := by
  refine Prioq.apply_sim (cmp := cmp) _ Spec.Prioq.okRepeated (fun ys _ => Prioq.Heap cmp ys) ?_ ?_ ?_ ?_ ?_ hf hh hl op hok
  · exact fun ys tr v hx hv => Prioq.root_le hc hx hv
  · exact fun ys tr v hh h2 => ⟨by simpa [Spec.Prioq.okRepeated] using h2, fun q ys' _ _ h3 h4 => h3 hc hh⟩
  · exact fun ys tr ys' tr' hh h1 h2 => h1 hc hh
  · exact fun ys tr v _ hm => False.elim hm
  · exact fun ys tr i hh hm => ⟨by simpa [Spec.Prioq.okRepeated] using hm, Or.inr ⟨hc, hh⟩⟩

theorem queue_sim (hc : Spec.Prioq.Preorder cmp) {q : Prioq.PQ Nat} {ys : List Nat} (hf : Prioq.Full q ys) (hh : Prioq.Heap cmp ys) (hl : ys.length ≤ 2 ^ 60)
    (op : QueueOp) (hok : match op with | .enqueue _ => (ys : Multiset Nat).card < 2 ^ 60 | .remove slot => slot < (ys : Multiset Nat).card | _ => True) :
    ∃ r q' ys', Returns (op.fn cmp q) (r, q') ∧ Prioq.Full q' ys' ∧ Prioq.Heap cmp ys' ∧ ys'.length ≤ 2 ^ 60 ∧
      QueueStep (fun a b => cmp a b ≤ 0) (ys : Multiset Nat) op r (ys' : Multiset Nat) := by
  cases op with
  | enqueue v =>
    obtain ⟨r, q', ys', h1, h2, h3, h4, h5⟩ := apply_heap hc hf hh hl (.enqueue v) hok
    obtain ⟨q1, g1, g2⟩ := returns_bind_inv h1
    rw [returns_pure] at g2
    cases g2
    refine ⟨.unit, q', ys', returns_bind_of g1 ((returns_pure _ _).2 rfl), h2, h3, h4, ?_⟩
    generalize (ys' : Multiset Nat) = z at h5
    generalize (ys : Multiset Nat) = y at h5
    cases h5
    exact .enqueue v
  | dequeue =>
    obtain ⟨r, q', ys', h1, h2, h3, h4, h5⟩ := apply_heap hc hf hh hl .dequeue trivial
    exact ⟨.elem r, q', ys', returns_bind_of h1 ((returns_pure _ _).2 rfl), h2, h3, h4, .dequeue r _ h5⟩
  | peek =>
    obtain ⟨r, q', ys', h1, h2, h3, h4, h5⟩ := apply_heap hc hf hh hl .peek trivial
    obtain ⟨r1, g1, g2⟩ := returns_bind_inv h1
    rw [returns_pure] at g2
    cases g2
    exact ⟨.elem r, q, ys', returns_bind_of g1 ((returns_pure _ _).2 rfl), h2, h3, h4, .peek r _ h5⟩
  | pop =>
    obtain ⟨r, q', ys', h1, h2, h3, h4, h5⟩ := apply_heap hc hf hh hl .pop trivial
    exact ⟨.elem r, q', ys', returns_bind_of h1 ((returns_pure _ _).2 rfl), h2, h3, h4, .pop r _ h5⟩
  | remove slot =>
    obtain ⟨r, q', ys', h1, h2, h3, h4, h5⟩ := apply_heap hc hf hh hl (.removeAt slot) hok
    obtain ⟨⟨r1, q1⟩, g1, g2⟩ := returns_bind_inv h1
    rw [returns_pure] at g2
    cases g2
    exact ⟨.elem (some r1), q1, ys', returns_bind_of g1 ((returns_pure _ _).2 rfl), h2, h3, h4, .remove slot _ _ h5⟩
  | size =>
    refine ⟨_, q, ys, (returns_pure _ _).2 rfl, hf, hh, hl, ?_⟩
    have : ((Prioq.size q : Nat) : Int) = ((ys : Multiset Nat).card : Int) := by simp [Prioq.size, hf.count]
    rw [this]
    exact .size

/-! ### Byte arrays -/

theorem data_split {b : BA.BA} (h : BA.Inv b) : ∃ rest, b.data = BA.contents b ++ [0] ++ rest := by
  obtain ⟨⟨rest, h1⟩, -⟩ := BA.shows_of_inv h
  exact ⟨rest, by simpa [BA.view] using h1⟩

variable {ext : Nat → Option (List UInt8)}

/-- What the user may read is in the block. -/
theorem source_sim (h : Good cmp w v) {src : Src} {bs : List UInt8} (hs : readable ext v src = some bs) : ∃ rest, source ext w src = .ok (bs ++ rest) := by
  cases src with
  | ext a off =>
    simp only [readable, source] at hs ⊢
    cases he : ext a with
    | none => rw [he] at hs; cases hs
    | some c =>
      rw [he] at hs
      dsimp only at hs ⊢
      split at hs
      · rename_i hl; cases hs; exact ⟨[], by rw [if_pos hl]; simp⟩
      · cases hs
  | own j off =>
    simp only [readable, source, bytesOf] at hs ⊢
    split at hs
    · rename_i max c k hv
      split at hs
      · rename_i hl
        cases hs
        obtain ⟨o, h1, h2⟩ := h.each j _ hv
        cases h2 with
        | bytes b rc hi _ =>
          obtain ⟨rest, hd⟩ := data_split hi
          refine ⟨rest, ?_⟩
          rw [h1]
          dsimp only
          have hlen : off ≤ b.data.length := by rw [hd]; simp; omega
          rw [if_pos hlen]
          conv => lhs; rw [hd]
          rw [List.drop_append_of_le_length (by simp; omega)]
      · cases hs
    · cases hs

theorem text_split {bs : List UInt8} (h : 0 ∈ bs) : ∃ t, bs = text bs ++ 0 :: t ∧ 0 ∉ text bs := by
  induction bs with
  | nil => cases h
  | cons x bs ih =>
    by_cases hx : x = 0
    · subst hx; exact ⟨bs, by simp [text], by simp [text]⟩
    · have : 0 ∈ bs := by
        rcases List.mem_cons.1 h with h | h
        · exact absurd h.symm hx
        · exact h
      obtain ⟨t, h1, h2⟩ := ih this
      refine ⟨t, ?_, ?_⟩
      · simp only [text, List.takeWhile_cons, ne_eq, hx, not_false_eq_true, decide_true, if_true, List.cons_append, List.cons.injEq, true_and]
        exact h1
      · simp only [text, List.takeWhile_cons, ne_eq, hx, not_false_eq_true, decide_true, if_true, List.mem_cons, not_or]
        exact ⟨Ne.symm hx, h2⟩

variable {b : BA.BA} {rc : UInt32} {junk : BA.Junk} {i : Nat}

theorem firstBytes_sim (h : Good cmp w v) {src : Src} {bs : List UInt8} (hs : readable ext v src = some bs) {len : Nat} (hl : len ≤ bs.length) :
    firstBytes ext w src len = .ok (bs.take len) := by
  obtain ⟨rest, h1⟩ := source_sim h hs
  simp only [firstBytes, h1]
  rw [if_pos (by simp; omega), List.take_append_of_le_length hl]

theorem appendF_sim (h : Good cmp w v) (hb : BA.Inv b) {src : Src} {bs : List UInt8} (hs : readable ext v src = some bs) {len : Nat} (hl : len ≤ bs.length)
    (hk : src.within i → len = 0) :
    ∃ b', appendF ext w i junk b rc src len = .ok (.int (if (Spec.ByteArray.append b.maxSize (BA.contents b) (bs.take len)).1 then 1 else 0), b', rc) ∧
      BA.Inv b' ∧ BA.contents b' = (Spec.ByteArray.append b.maxSize (BA.contents b) (bs.take len)).2 ∧ b'.maxSize = b.maxSize := by
  obtain ⟨b', h1, h2⟩ := BA.append_spec junk hb (bs.take len)
  refine ⟨b', ?_, h2⟩
  simp only [appendF, firstBytes_sim h hs hl]
  rw [if_pos, h1]
  · rfl
  · cases src with
    | ext a off => rfl
    | own j off =>
      by_cases e : j = i
      · simp [appendOk, hk e]
      · simp [appendOk, e]

theorem copyF_sim (h : Good cmp w v) (hb : BA.Inv b) {src : Src} {bs : List UInt8} (hs : readable ext v src = some bs) {pos len : Nat} (hl : len ≤ bs.length)
    (h64 : len < 2 ^ 64) (hk : src.within i → pos + len ≤ (BA.contents b).length) :
    ∃ b', copyF ext w i junk b rc pos src len = .ok (.int (if (Spec.ByteArray.copy b.maxSize (BA.contents b) pos (bs.take len)).1 then 1 else 0), b', rc) ∧
      BA.Inv b' ∧ BA.contents b' = (Spec.ByteArray.copy b.maxSize (BA.contents b) pos (bs.take len)).2 ∧ b'.maxSize = b.maxSize := by
  obtain ⟨b', h1, h2⟩ := BA.copy_spec junk hb pos (bs.take len) (by rw [List.length_take]; omega)
  refine ⟨b', ?_, h2⟩
  simp only [copyF, firstBytes_sim h hs hl]
  rw [if_pos, h1]
  · rfl
  · cases src with
    | ext a off => rfl
    | own j off =>
      by_cases e : j = i
      · have := hk e
        rw [BA.contents_length hb] at this
        have g1 := hb.curSize; have g2 := hb.size64
        have : len ≤ BA.sub64 b.cursor pos := by rw [BA.sub64_eq (by omega) (by omega)]; omega
        simp [copyOk, this]
      · simp [copyOk, e]

theorem bytes_sim (h : Good cmp w v) (hb : BA.Inv b) (hrc : 0 < rc.toNat) (op : BytesOp) (hok : bytesOk ext v i (BA.contents b) rc.toNat op) :
    ∃ b' rc', op.fn ext w i junk b rc = .ok ((bytesStep ext v b.maxSize (BA.contents b) rc.toNat op).1, b', rc') ∧ BA.Inv b' ∧ b'.maxSize = b.maxSize ∧
      BA.contents b' = (bytesStep ext v b.maxSize (BA.contents b) rc.toNat op).2.1 ∧ rc'.toNat = (bytesStep ext v b.maxSize (BA.contents b) rc.toNat op).2.2 ∧
      0 < rc'.toNat := by
  cases op with
  | append src len =>
    obtain ⟨bs, h1, h2, h3⟩ := hok
    obtain ⟨b', g1, g2, g3, g4⟩ := appendF_sim (junk := junk) (rc := rc) h hb h1 h2 h3
    simp only [Spec.Objects.BytesOp.fn, bytesStep, h1, Option.getD_some]
    exact ⟨b', rc, g1, g2, g4, g3, rfl, hrc⟩
  | appendString src =>
    obtain ⟨bs, h1, h2, h3⟩ := hok
    obtain ⟨t, e1, e2⟩ := text_split h2
    obtain ⟨rest, hsrc⟩ := source_sim h h1
    have hn : BA.strlen (bs ++ rest) = .ok (text bs).length := by
      conv => lhs; rw [e1]
      rw [List.append_assoc, List.cons_append]
      exact BA.strlen_spec _ _ e2
    have hle : (text bs).length ≤ bs.length := by
      conv => rhs; rw [e1]
      rw [List.length_append]; omega
    have htk : bs.take (text bs).length = text bs := by
      have := List.take_left (l₁ := text bs) (l₂ := 0 :: t)
      rwa [← e1] at this
    obtain ⟨b', g1, g2, g3, g4⟩ := appendF_sim (junk := junk) (rc := rc) (i := i) h hb h1 hle (fun hw => by rw [h3 hw]; rfl)
    rw [htk] at g1 g3
    simp only [Spec.Objects.BytesOp.fn, bytesStep, h1, Option.getD_some, hsrc, hn]
    exact ⟨b', rc, g1, g2, g4, g3, rfl, hrc⟩
  | copy pos src len =>
    obtain ⟨bs, h1, h2, h3, h4⟩ := hok
    obtain ⟨b', g1, g2, g3, g4⟩ := copyF_sim (junk := junk) (rc := rc) h hb h1 h2 h3 h4
    simp only [Spec.Objects.BytesOp.fn, bytesStep, h1, Option.getD_some]
    exact ⟨b', rc, g1, g2, g4, g3, rfl, hrc⟩
  | copyString pos src =>
    obtain ⟨bs, h1, h2, h3, h4⟩ := hok
    obtain ⟨t, e1, e2⟩ := text_split h2
    obtain ⟨rest, hsrc⟩ := source_sim h h1
    have hn : BA.strlen (bs ++ rest) = .ok (text bs).length := by
      conv => lhs; rw [e1]
      rw [List.append_assoc, List.cons_append]
      exact BA.strlen_spec _ _ e2
    have hle : (text bs).length ≤ bs.length := by
      conv => rhs; rw [e1]
      rw [List.length_append]; omega
    have htk : bs.take (text bs).length = text bs := by
      have := List.take_left (l₁ := text bs) (l₂ := 0 :: t)
      rwa [← e1] at this
    obtain ⟨b', g1, g2, g3, g4⟩ := copyF_sim (junk := junk) (rc := rc) (i := i) (pos := pos) h hb h1 hle (by omega) h4
    rw [htk] at g1 g3
    simp only [Spec.Objects.BytesOp.fn, bytesStep, h1, Option.getD_some, hsrc, hn]
    exact ⟨b', rc, g1, g2, g4, g3, rfl, hrc⟩
  | stream cb len =>
    obtain ⟨b', g1, g2, g3, g4⟩ := BA.stream_spec junk hb cb (fun n => ⟨(hok n).1, (hok n).2.1⟩) len
    simp only [Spec.Objects.BytesOp.fn, g1]
    exact ⟨b', rc, rfl, g4 fun n => (hok n).2.2, g3, g2, rfl, hrc⟩
  | resize n c =>
    obtain ⟨b', g1, g2, g3, g4⟩ := BA.resize_spec junk hb n c hok
    simp only [Spec.Objects.BytesOp.fn, g1]
    exact ⟨b', rc, rfl, g2, g4, g3, rfl, hrc⟩
  | clear =>
    obtain ⟨b', g1, g2, g3, g4⟩ := BA.clear_spec hb
    simp only [Spec.Objects.BytesOp.fn, g1]
    exact ⟨b', rc, rfl, g2, g4, g3, rfl, hrc⟩
  | view =>
    obtain ⟨rest, hd⟩ := data_split hb
    have hl := BA.contents_length hb
    have hlen : b.cursor + 1 ≤ b.data.length := by rw [hd]; simp; omega
    have htk : b.data.take (b.cursor + 1) = BA.contents b ++ [0] := by
      conv => lhs; rw [hd]
      rw [List.take_left' (by simp [hl])]
    simp only [Spec.Objects.BytesOp.fn, if_pos hlen, htk]
    exact ⟨b, rc, rfl, hb, rfl, rfl, rfl, hrc⟩
  | share =>
    have h32 : rc.toNat + 1 < 2 ^ 32 := hok
    have : (rc + 1).toNat = rc.toNat + 1 := by rw [UInt32.toNat_add]; exact Nat.mod_eq_of_lt h32
    exact ⟨b, rc + 1, rfl, hb, rfl, rfl, this, by omega⟩

/-! ### Programs -/

theorem step_sim (hc : Spec.Prioq.Preorder cmp) (h : Good cmp w v) (c : Cmd) (hok : Spec.Objects.ok ext v c) :
    ∃ r w' v', Returns (stepF ext cmp w c) (r, w') ∧ Step ext (fun a b => cmp a b ≤ 0) v c r v' ∧ Good cmp w' v' := by
  cases c with
  | makeSet null n =>
    have hn : n.toNat ≤ 2 ^ 31 := hok
    obtain ⟨h1, h2, h3⟩ := IntSet.make_spec n (by omega)
    have := Rep.set (cmp := cmp) (IntSet.make n) (fun _ => false) ⟨h1, fun i _ => h3 i, fun _ _ => rfl⟩ (by rw [h2]; exact hn)
    rw [h2] at this
    exact ⟨.unit, _, _, (returns_pure _ _).2 rfl, .makeSet null n, h.add this⟩
  | makeQueue =>
    exact ⟨.unit, _, _, (returns_pure _ _).2 rfl, .makeQueue, h.add (Rep.queue Prioq.make [] Prioq.make_full (by intro i a b _ ha; simp at ha) (by simp))⟩
  | makeBytes junk max =>
    obtain ⟨b, h1, h2, h3, h4⟩ := BA.make_spec junk max hok.1 hok.2
    have := Rep.bytes (cmp := cmp) b 1 h2 (by decide)
    rw [h3, h4] at this
    exact ⟨.unit, _, _, returns_bind_of ((returns_liftC _ _).2 h1) ((returns_pure _ _).2 rfl), .makeBytes junk max, h.add this⟩
  | onSet i op =>
    obtain ⟨n, S, hv⟩ := hok
    obtain ⟨o, h1, h2⟩ := h.each i _ hv
    cases h2 with
    | set s _ hr hn =>
      obtain ⟨r, s', S', g1, g2, g3, g4⟩ := set_sim hr hn op
      have := Rep.set (cmp := cmp) s' S' g3 (by rw [g4]; exact hn)
      rw [g4] at this
      refine ⟨r, w.set i (some (.set s')), _, ?_, .onSet i _ S S' op r hv g2, h.change i this⟩
      simp only [stepF, h1]
      exact returns_bind_of g1 ((returns_pure _ _).2 rfl)
  | onQueue i op =>
    obtain ⟨xs, hv, hq⟩ := hok
    obtain ⟨o, h1, h2⟩ := h.each i _ hv
    cases h2 with
    | queue q ys hf hh hl =>
      obtain ⟨r, q', ys', g1, g2, g3, g4, g5⟩ := queue_sim hc hf hh hl op hq
      refine ⟨r, w.set i (some (.queue q')), _, ?_, .onQueue i _ ys' op r hv g5, h.change i (.queue q' ys' g2 g3 g4)⟩
      simp only [stepF, h1]
      exact returns_bind_of g1 ((returns_pure _ _).2 rfl)
  | onBytes i junk op =>
    obtain ⟨max, c, k, hv, hq⟩ := hok
    obtain ⟨o, h1, h2⟩ := h.each i _ hv
    cases h2 with
    | bytes b rc hi hrc =>
      obtain ⟨b', rc', g1, g2, g3, g4, g5, g6⟩ := bytes_sim (junk := junk) h hi hrc op hq
      have := Rep.bytes (cmp := cmp) b' rc' g2 g6
      rw [g3, g4, g5] at this
      refine ⟨_, w.set i (some (.bytes b' rc')), _, ?_, .onBytes i _ _ _ junk op hv, h.change i this⟩
      simp only [stepF, h1]
      exact returns_bind_of ((returns_liftC _ _).2 g1) ((returns_pure _ _).2 rfl)
  | destroy i =>
    obtain ⟨s, hv⟩ := hok
    obtain ⟨o, h1, h2⟩ := h.each i _ hv
    cases h2 with
    | set s S _ _ => exact ⟨.unit, w.set i none, _, by simp only [stepF, h1, returns_pure], .destroySet i _ _ hv, h.remove i⟩
    | queue q ys _ _ _ => exact ⟨.unit, w.set i none, _, by simp only [stepF, h1, returns_pure], .destroyQueue i _ hv, h.remove i⟩
    | bytes b rc hi hrc =>
      have hsub : (rc - 1).toNat = rc.toNat - 1 := by
        rw [UInt32.toNat_sub_of_le _ _ (by rw [UInt32.le_iff_toNat_le]; exact hrc)]; rfl
      by_cases hr : rc - 1 ≠ 0
      · have h1' : rc.toNat = (rc.toNat - 2) + 2 := by
          have : (rc - 1).toNat ≠ 0 := fun e => hr (UInt32.toNat_inj.1 e)
          omega
        have hg := Rep.bytes (cmp := cmp) b (rc - 1) hi (by omega)
        rw [show (rc - 1).toNat = rc.toNat - 2 + 1 by omega] at hg
        rw [h1'] at hv
        exact ⟨.unit, _, _, by simp only [stepF, h1, returns_pure, if_pos hr], .release i _ _ _ hv, h.change i hg⟩
      · have h1' : rc.toNat = 1 := by
          have : (rc - 1).toNat = 0 := by rw [not_ne_iff.1 hr]; rfl
          omega
        rw [h1'] at hv
        exact ⟨.unit, _, _, by simp only [stepF, h1, returns_pure, if_neg hr], .destroyBytes i _ _ hv, h.remove i⟩

theorem prog_sim (hc : Spec.Prioq.Preorder cmp) : ∀ (cs : List Cmd) {w : World} {v : Spec.Objects.World}, Good cmp w v → Legal ext (fun a b => cmp a b ≤ 0) v cs →
    ∃ rs w' v', Returns (progF ext cmp w cs) (rs, w') ∧ Steps ext (fun a b => cmp a b ≤ 0) v cs rs v' ∧ Good cmp w' v' := by
  intro cs
  induction cs with
  | nil => intro w v h _; exact ⟨[], w, v, (returns_pure _ _).2 rfl, .nil v, h⟩
  | cons c cs ih =>
    intro w v h hl
    obtain ⟨r, w1, v1, h1, h2, h3⟩ := step_sim hc h c hl.1
    obtain ⟨rs, w2, v2, g1, g2, g3⟩ := ih h3 (hl.2 _ _ h2)
    exact ⟨r :: rs, w2, v2, returns_bind_of h1 (returns_bind_of g1 ((returns_pure _ _).2 rfl)), .cons h2 g2, g3⟩

end Verif.Objects
