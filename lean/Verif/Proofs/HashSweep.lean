import Verif.Spec.Sweep
import Verif.Proofs.HashSim

/-! Loops of the user over a hash table that remove elements as they go. -/

set_option autoImplicit false

namespace Verif.Hash
open Spec
open Spec.Hash (Item State)

/-- `if (b) hash_table_remove(table, e);` -/
def removeIf (b : Bool) (table e : Nat) : M Unit := if b then remove table e else pure ()

/-- `while (e) { n = hash_table_get_other(e); if (drop(e)) hash_table_remove(table, e); e = n; }`. The result is the elements visited, with the keys and
values they had. -/
def sweepLoop (drop : List Item → Item → Bool) (table : Nat) (seen : List Item) (e : Nat) : M (List Item) := do
  if e = 0 then pure seen
  else
    let n ← getOther e
    let k ← getKey e
    let v ← getValue e
    removeIf (drop seen ⟨e, k, v⟩) table e
    sweepLoop drop table (seen ++ [⟨e, k, v⟩]) n
partial_fixpoint

/-- The loop from `hash_table_get_any` on. -/
def sweep (drop : List Item → Item → Bool) (table : Nat) : M (List Item) := do
  let e ← getAny table
  sweepLoop drop table [] e

/-- `while ((e = hash_table_pop_any(table))) destroy_hash_element(e);` -/
def drain (table : Nat) (seen : List Item) : M (List Item) := do
  let e ← popAny table
  if e = 0 then pure seen
  else
    let k ← getKey e
    let v ← getValue e
    destroyElement e
    drain table (seen ++ [⟨e, k, v⟩])
partial_fixpoint

theorem locate_split (bs : List Bucket) : ∀ {pre post : List Ent} {e : Ent}, ents bs = pre ++ e :: post →
    ∃ (i l : Nat) (xs ys : List Ent), bs[i]? = some (l, xs ++ e :: ys) ∧ post = ys ++ ents (bs.drop (i + 1)) ∧
      ents (bs.set i (l, xs ++ ys)) = pre ++ post := by
  induction bs with
  | nil => intro pre post e h; simp [ents] at h
  | cons b bs ih =>
    intro pre post e h
    obtain ⟨l, es⟩ := b
    rw [ents_cons] at h
    rcases List.append_eq_append_iff.1 h with ⟨as, h1, h2⟩ | ⟨as, h1, h2⟩
    · obtain ⟨i, l', xs, ys, q1, q2, q3⟩ := ih h2
      refine ⟨i + 1, l', xs, ys, by simpa using q1, by simpa using q2, ?_⟩
      rw [List.set_cons_succ, ents_cons, q3, h1]; simp
    · cases as with
      | nil =>
        obtain ⟨i, l', xs, ys, q1, q2, q3⟩ := ih (pre := []) h2.symm
        refine ⟨i + 1, l', xs, ys, by simpa using q1, by simpa using q2, ?_⟩
        rw [List.set_cons_succ, ents_cons, q3]; simp at h1; simp [h1]
      | cons f as =>
        simp only [List.cons_append, List.cons.injEq] at h2
        obtain ⟨rfl, rfl⟩ := h2
        simp only at h1
        subst h1
        exact ⟨0, l, pre, as, rfl, rfl, by simp [ents]⟩

variable [Ptrs] {hash : Nat → Nat} {m0 m : Mem} {t tb cap sz : Nat} {bs : List Bucket} {det : List Item}

theorem remove_split {pre post : List Ent} {e : Ent} (h : HMem hash m0 t tb cap ((ents bs).length % 2 ^ 64) bs det m) (he : ents bs = pre ++ e :: post) :
    Does (remove t e.he) m (fun _ m' => ∃ bs', ents bs' = pre ++ post ∧ HMem hash m0 t tb cap ((ents bs').length % 2 ^ 64) bs' det m') := by
  obtain ⟨i, l, xs, ys, hi, -, hs⟩ := locate_split bs he
  refine Does.bind ((detach_spec h hi).mono fun _ m1 h1 => ?_)
  obtain ⟨q1, x, y, z, q2⟩ := h1.dt e.item (by simp)
  refine does_free q1 q2 ⟨_, hs, ?_⟩
  rw [(items_split hi l []).2.1, dec_len] at h1
  exact h1.discard (xs := []) rfl

theorem fields {e : Ent} (h : HMem hash m0 t tb cap sz bs det m) (he : e ∈ ents bs) :
    e.he ≠ 0 ∧ Run (getKey e.he) m e.key m ∧ Run (getValue e.he) m e.value m := by
  obtain ⟨h0, x, y, z, e'⟩ := h.elem' he
  exact ⟨h0, (run_readHE h0 e').bind (Run.pure _ _), (run_readHE h0 e').bind (Run.pure _ _)⟩

theorem sweepLoop_does {drop : List Item → Item → Bool} (hc : cap < 2 ^ 64) (ys : List Ent) : ∀ {xs : List Ent} {seen : List Item} {bs : List Bucket} {m : Mem},
    HMem hash m0 t tb cap ((ents bs).length % 2 ^ 64) bs det m → ents bs = xs ++ ys →
    Does (sweepLoop drop t seen (first ys)) m (fun r m' => r = seen ++ ys.map Ent.item ∧ ∃ bs',
      (ents bs').map Ent.item = xs.map Ent.item ++ kept drop seen (ys.map Ent.item) ∧ HMem hash m0 t tb cap ((ents bs').length % 2 ^ 64) bs' det m') := by
  induction ys with
  | nil =>
    intro xs seen bs m h e
    rw [sweepLoop]
    exact does_pos rfl (Does.pure ⟨by simp, bs, by simp [e, kept], h⟩)
  | cons i ys ih =>
    intro xs seen bs m h e
    obtain ⟨h0, hk, hv⟩ := fields (e := i) h (by rw [e]; simp)
    rw [sweepLoop, show first (i :: ys) = i.he from rfl]
    obtain ⟨j, l, as, cs, q1, q2, -⟩ := locate_split bs e
    refine does_neg h0 (Does.bind ((getOther_spec h hc ⟨j, l, as, cs, q1, q2⟩).does ?_))
    refine Does.bind (hk.does (Does.bind (hv.does (Does.bind ?_))))
    by_cases hd : drop seen i.item
    · refine does_pos hd ((remove_split h e).mono ?_)
      rintro _ m1 ⟨bs1, e1, h1⟩
      refine (ih h1 e1).mono ?_
      rintro _ m2 ⟨rfl, bs2, e2, h2⟩
      exact ⟨by simp [Ent.item], bs2, by rw [e2, List.map_cons, kept, if_pos hd]; rfl, h2⟩
    · refine does_neg hd (Does.pure ?_)
      refine (ih (xs := xs ++ [i]) h (by rw [e]; simp)).mono ?_
      rintro _ m2 ⟨rfl, bs2, e2, h2⟩
      refine ⟨by simp [Ent.item], bs2, ?_, h2⟩
      rw [e2, List.map_cons, kept, if_neg hd, List.map_append, List.append_assoc]
      rfl

theorem sweep_does {s : State} (drop : List Item → Item → Bool) (h : HInv hash m0 t cap s m) :
    Does (sweep drop t) m (fun r m' => (r : Multiset Item) = s.items ∧ HInv hash m0 t cap ⟨↑(kept drop [] r), s.loose⟩ m') := by
  obtain ⟨hc, tb, bs, det, h, hi, hl⟩ := h
  have hr := getNext_spec h _ 0 rfl
  rw [List.drop_zero] at hr
  refine Does.bind (hr.does ((sweepLoop_does (drop := drop) (xs := []) (seen := []) hc (ents bs) h rfl).mono ?_))
  rintro _ m1 ⟨rfl, bs1, e1, h1⟩
  refine ⟨by rw [hi, List.nil_append], hc, tb, bs1, det, h1, ?_, hl⟩
  rw [e1]; simp

theorem drain_does (n : Nat) : ∀ {s : State} {seen : List Item} {m : Mem}, s.items.card = n → HInv hash m0 t cap s m →
    Does (drain t seen) m (fun r m' => ∃ l : List Item, r = seen ++ l ∧ (l : Multiset Item) = s.items ∧ HInv hash m0 t cap ⟨0, s.loose⟩ m') := by
  induction n with
  | zero =>
    intro s seen m hn h
    obtain ⟨items, loose⟩ := s
    have h' := h
    obtain ⟨hc, tb, bs, det, h, hi, hl⟩ := h
    obtain rfl : items = 0 := Multiset.card_eq_zero.1 hn
    rw [drain]
    rcases popAnyLoop_spec h _ 0 rfl with ⟨j, l, e, ys, hj, hd, -⟩ | ⟨he, hr⟩
    · have : e ∈ ents bs := mem_ents.2 ⟨j, l, _, hj, by simp⟩
      have h0 : (ents bs).map Ent.item = [] := (Multiset.coe_eq_zero _).1 hi.symm
      simp only [List.map_eq_nil_iff] at h0
      rw [h0] at this; simp at this
    · exact Does.bind (hr.does (does_pos rfl (Does.pure ⟨[], by simp, rfl, h'⟩)))
  | succ n ih =>
    intro s seen m hn h
    obtain ⟨items, loose⟩ := s
    obtain ⟨hc, tb, bs, det, h, hi, hl⟩ := h
    simp only at hi hl hn
    rw [drain]
    rcases popAnyLoop_spec h _ 0 rfl with ⟨j, l, e, ys, hj, hd, -⟩ | ⟨he, hr⟩
    · refine Does.bind (hd.mono ?_)
      rintro p m1 ⟨rfl, h1⟩
      rw [(items_split (xs := []) hj l []).2.1, dec_len] at h1
      obtain ⟨q1, x, y, z, q2⟩ := h1.dt e.item (by simp)
      have hk : Run (getKey e.he) m1 e.key m1 := (run_readHE q1 q2).bind (Run.pure _ _)
      have hv : Run (getValue e.he) m1 e.value m1 := (run_readHE q1 q2).bind (Run.pure _ _)
      refine does_neg q1 (Does.bind (hk.does (Does.bind (hv.does (Does.bind (does_free q1 q2 ?_))))))
      have hcons := (items_split (xs := []) hj l []).1
      rw [← hi] at hcons
      have hcard := congrArg Multiset.card hcons
      rw [Multiset.card_cons, hn] at hcard
      refine (ih (s := ⟨↑((ents (bs.set j (l, [] ++ ys))).map Ent.item), loose⟩) (by simp only; omega) ⟨hc, tb, _, det, h1.discard (xs := []) rfl, rfl, hl⟩).mono ?_
      rintro _ m2 ⟨r, rfl, hr, h2⟩
      refine ⟨e.item :: r, by simp [Ent.item], ?_, h2⟩
      rw [← Multiset.cons_coe, hr, hcons]
    · rw [List.drop_zero] at he
      rw [hi, he] at hn
      simp at hn

end Verif.Hash
