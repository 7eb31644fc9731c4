import Verif.Proofs.HashSim
import Verif.Spec.HashOrder

/-! Programs on a hash table against the specification with an order. -/

set_option autoImplicit false

namespace Verif.Hash

variable [Ptrs]

open Spec.Hash (Item Op Res Prog Fresh ok)
open Spec.HashOrder (tour head Sees Finds)

variable {hash : Nat → Nat} {cmp : Nat → Nat → Int} {m0 m : Mem} {t tb cap sz : Nat} {bs : List Bucket} {det items : List Item}

/-- Each bucket holds its items from the oldest to the newest. -/
def Ord (hash : Nat → Nat) (cap : Nat) (bs : List Bucket) (items : List Item) : Prop :=
  ∀ (i l : Nat) (es : List Ent), bs[i]? = some (l, es) → es.map Ent.item = items.filter fun x => hash x.key % cap = i

omit [Ptrs] in
theorem Ord.tour_drop (h : Ord hash cap bs items) : ∀ (n i : Nat), n = bs.length - i →
    (ents (bs.drop i)).map Ent.item = (List.range' i n).flatMap fun b => items.filter fun x => hash x.key % cap = b := by
  intro n
  induction n with
  | zero => intro i hn; rw [List.drop_eq_nil_of_le (by omega)]; rfl
  | succ n ih =>
    intro i hn
    have hi : bs[i]? = some bs[i] := by simp
    rw [ents_drop hi, List.map_append, ih (i + 1) (by omega), List.range'_succ, List.flatMap_cons]
    exact congrArg (· ++ _) (h i _ _ hi)

omit [Ptrs] in
theorem Ord.tour (h : Ord hash cap bs items) (hl : bs.length = cap) : (ents bs).map Ent.item = tour hash cap items := by
  have := h.tour_drop bs.length 0 rfl
  rw [List.drop_zero, hl, ← List.range_eq_range'] at this
  exact this

omit [Ptrs] in
/-- The tour goes through all items. -/
theorem tour_perm (hash : Nat → Nat) {cap : Nat} (hc : 0 < cap) (items : List Item) : (tour hash cap items).Perm items := by
  induction items with
  | nil => simp [Spec.HashOrder.tour]
  | cons x xs ih =>
    obtain ⟨us, vs, huv⟩ := List.append_of_mem (List.mem_range.2 (Nat.mod_lt (hash x.key) hc))
    have hn : (us ++ hash x.key % cap :: vs).Nodup := huv ▸ List.nodup_range
    rw [List.nodup_append, List.nodup_cons] at hn
    have other : ∀ ws : List Nat, hash x.key % cap ∉ ws → (ws.flatMap fun b => (x :: xs).filter fun i => hash i.key % cap = b) =
        ws.flatMap fun b => xs.filter fun i => hash i.key % cap = b := by
      intro ws hws
      have hw : ∀ b ∈ ws, ((x :: xs).filter fun i => hash i.key % cap = b) = xs.filter fun i => hash i.key % cap = b := by
        intro b hb
        rw [List.filter_cons_of_neg]
        simp only [decide_eq_true_eq]
        rintro rfl
        exact hws hb
      rw [List.flatMap_def, List.flatMap_def, List.map_congr_left hw]
    unfold Spec.HashOrder.tour at ih ⊢
    rw [huv, List.flatMap_append, List.flatMap_cons] at ih ⊢
    rw [other us fun hu => hn.2.2 _ hu _ (by simp) rfl, other vs hn.2.1.1, List.filter_cons_of_pos (by simp)]
    exact List.perm_middle.trans (ih.cons x)

omit [Ptrs] in
theorem Ord.perm (h : Ord hash cap bs items) (hl : bs.length = cap) (hc : 0 < cap) : ((ents bs).map Ent.item).Perm items := by
  rw [h.tour hl]; exact tour_perm hash hc items

omit [Ptrs] in
theorem Ord.mem (h : Ord hash cap bs items) (hl : bs.length = cap) (hc : 0 < cap) {e : Ent} (he : e ∈ ents bs) : e.item ∈ items :=
  (h.perm hl hc).mem_iff.1 (List.mem_map.2 ⟨e, he, rfl⟩)

omit [Ptrs] in
/-- An element leaves. -/
theorem Ord.leave (h : Ord hash cap bs items) {i l : Nat} {xs ys : List Ent} {e : Ent} (hi : bs[i]? = some (l, xs ++ e :: ys)) :
    ∃ us vs, items = us ++ e.item :: vs ∧ (us.filter fun x => hash x.key % cap = i) = xs.map Ent.item ∧
      ∀ l', Ord hash cap (bs.set i (l', xs ++ ys)) (us ++ vs) := by
  have hf := h i _ _ hi
  rw [List.map_append, List.map_cons, eq_comm, List.filter_eq_append_iff] at hf
  obtain ⟨us1, ws, rfl, h1, h2⟩ := hf
  rw [List.filter_eq_cons_iff] at h2
  obtain ⟨us2, vs, rfl, h3, h4, h5⟩ := h2
  have h3' : (us2.filter fun x => hash x.key % cap = i) = [] := List.filter_eq_nil_iff.2 h3
  refine ⟨us1 ++ us2, vs, by simp, by rw [List.filter_append, h1, h3', List.append_nil], fun l' j l2 es hj => ?_⟩
  rw [List.filter_append, List.filter_append]
  by_cases hji : j = i
  · subst hji
    have hlt := (List.getElem?_eq_some_iff.1 hi).1
    rw [List.getElem?_set_self hlt] at hj
    cases hj
    rw [h1, h3', h5, List.append_nil, List.map_append]
  · rw [List.getElem?_set_ne (Ne.symm hji)] at hj
    rw [h j _ _ hj, List.filter_append, List.filter_append, List.filter_cons_of_neg, List.append_assoc]
    simp only [decide_eq_true_eq] at h4 ⊢
    omega

omit [Ptrs] in
/-- An element is added. -/
theorem Ord.add (h : Ord hash cap bs items) {i l : Nat} {es : List Ent} (hi : bs[i]? = some (l, es)) (l' : Nat) {e : Ent} (he : hash e.key % cap = i) :
    Ord hash cap (bs.set i (l', es ++ [e])) (items ++ [e.item]) := by
  intro j l2 fs hj
  rw [List.filter_append]
  by_cases hji : j = i
  · subst hji
    have hlt := (List.getElem?_eq_some_iff.1 hi).1
    rw [List.getElem?_set_self hlt] at hj
    cases hj
    rw [List.map_append, h _ _ _ hi, List.filter_cons_of_pos (p := fun x : Item => decide (hash x.key % cap = j)) (decide_eq_true (show hash e.item.key % cap = j from he))]
    rfl
  · rw [List.getElem?_set_ne (Ne.symm hji)] at hj
    rw [h j _ _ hj, List.filter_cons_of_neg (by rw [decide_eq_true_eq]; exact fun hh => hji (hh.symm.trans he))]
    simp

/-- Memory holds a table with the items and loose elements of `s`, in this order; the rest is as in `m0`. -/
structure OInv (hash : Nat → Nat) (m0 : Mem) (t cap : Nat) (s : Spec.HashOrder.State) (m : Mem) : Prop where
  cap64 : cap < 2 ^ 64
  mem : ∃ tb bs det, HMem hash m0 t tb cap (s.items.length % 2 ^ 64) bs det m ∧ Ord hash cap bs s.items ∧ s.loose = ↑det

/-- The invariant for the specification without order. -/
theorem OInv.forget {s : Spec.HashOrder.State} (h : OInv hash m0 t cap s m) : HInv hash m0 t cap s.forget m := by
  obtain ⟨hc, tb, bs, det, h, ho, hl⟩ := h
  have hp := ho.perm h.len h.pos
  refine ⟨hc, tb, bs, det, ?_, (Multiset.coe_eq_coe.2 hp).symm, hl⟩
  have := hp.length_eq
  rw [List.length_map] at this
  rw [this]; exact h

theorem callWith_order {A : Alloc} (hA : A.Good) {s : Spec.HashOrder.State} (h : OInv hash m0 t cap s m) (op : Op) (hok : ok s.forget op) :
    Does (callWith A hash cmp t op) m (fun r m' => ∃ s', Spec.HashOrder.Step hash cmp cap s op r s' ∧ OInv hash m0 t cap s' m') := by
  have stay := h
  obtain ⟨hc, tb, bs, det, h, ho, hl⟩ := h
  obtain ⟨items, loose⟩ := s
  simp only at hl ho h
  subst hl
  have hp := ho.perm h.len h.pos
  have htour := ho.tour h.len
  have hok' : ok ⟨↑((ents bs).map Ent.item), ↑det⟩ op := by rw [Multiset.coe_eq_coe.2 hp]; exact hok
  have hmiss : ∀ {k : Nat}, (∀ e ∈ ents bs, ¬ sees hash cmp cap k e.key) → ∀ i ∈ items, ¬ Sees hash cmp cap k i.key := by
    intro k hk i hi
    obtain ⟨e, he, rfl⟩ := List.mem_map.1 (hp.mem_iff.2 hi)
    exact hk e he
  have hfinds : ∀ {k : Nat} {us : List Item} {xs : List Ent} {e : Ent}, (us.filter fun x => hash x.key % cap = hash k % cap) = xs.map Ent.item →
      (∀ x ∈ xs, cmp k x.key ≠ 0) → sees hash cmp cap k e.key → Finds hash cmp cap k us e.item := by
    intro k us xs e h1 h2 h3
    refine ⟨h3, fun x hx hs => ?_⟩
    have : x ∈ us.filter fun x => hash x.key % cap = hash k % cap := List.mem_filter.2 ⟨hx, by simpa using hs.2.symm⟩
    rw [h1] at this
    obtain ⟨f, hf, rfl⟩ := List.mem_map.1 this
    exact h2 f hf hs.1
  have hlen : ∀ (us vs : List Item) (x : Item), ((us ++ x :: vs).length % 2 ^ 64 + (2 ^ 64 - 1)) % 2 ^ 64 = (us ++ vs).length % 2 ^ 64 := by
    intro us vs x
    simp only [List.length_append, List.length_cons]
    omega
  cases op with
  | put k v =>
    refine Does.bind ((put_spec hA h k v).mono fun p m' hr => Does.pure ?_)
    cases hr with
    | new l le he es hi hp' hn h' h0 hf =>
      obtain ⟨l0, hi⟩ := hi
      subst hp'
      refine ⟨_, .put_new (a := he) (hmiss (h.miss hi hn)) ?_, hc, tb, _, det, ?_, ho.add hi l (e := ⟨le, he, k, v⟩) rfl, rfl⟩
      · have := fresh_of h h0 hf
        rwa [Multiset.coe_eq_coe.2 hp] at this
      · simp only [List.length_append, List.length_cons, List.length_nil, Nat.zero_add]
        rw [← inc_len]; exact h'
    | same l es e hi he hcm hv hp' hm hx =>
      subst hp' hm
      obtain ⟨xs, ys, rfl, hx⟩ := hx
      obtain ⟨us, vs, rfl, h1, -⟩ := ho.leave hi
      refine ⟨_, ?_, stay⟩
      rw [← hv]
      exact .put_same (i := e.item) (hfinds h1 hx ⟨hcm, (h.elem hi he).2.2.symm⟩)
    | replace l le he xs ys e hi hcm hv hp' h' h0 hf hg hx =>
      subst hp'
      obtain ⟨us, vs, rfl, h1, h2⟩ := ho.leave hi
      have hlt : hash k % cap < bs.length := (List.getElem?_eq_some_iff.1 hi).1
      have h3 := (h2 l).add (i := hash k % cap) (l := l) (es := xs ++ ys) (by simp [hlt]) l (e := ⟨le, he, k, v⟩) rfl
      rw [List.set_set] at h3
      refine ⟨_, .put_replace (i := e.item) (a := he) (hfinds h1 hx ⟨hcm, (h.elem hi (e := e) (by simp)).2.2.symm⟩) hv ?_, hc, tb, _, e.item :: det, ?_, h3, rfl⟩
      · refine ⟨h0, fun i hi => ?_⟩
        simp only [Multiset.mem_add, Multiset.mem_coe] at hi
        rcases hi with hi | hi
        · obtain ⟨f, hf', rfl⟩ := List.mem_map.1 (hp.mem_iff.2 hi)
          exact hf f hf'
        · exact hg i hi
      · have : (us ++ e.item :: vs).length = (us ++ vs ++ [(⟨he, k, v⟩ : Item)]).length := by
          simp only [List.length_append, List.length_cons, List.length_nil]; omega
        rw [this] at h'
        exact h'
  | get k =>
    obtain ⟨p, hr, hp'⟩ := get_spec (cmp := cmp) h k
    refine Does.bind (hr.does (Does.pure ?_))
    rcases hp' with ⟨rfl, hp'⟩ | ⟨l, xs, e, ys, hi, rfl, hs, hx⟩
    · exact ⟨_, .get_miss (hmiss hp'), stay⟩
    · obtain ⟨us, vs, rfl, h1, -⟩ := ho.leave hi
      exact ⟨_, .get_hit (i := e.item) (hfinds h1 hx hs), stay⟩
  | pop k =>
    obtain ⟨p, hr, hp'⟩ := get_spec (cmp := cmp) h k
    refine Does.bind (Does.bind (hr.does ?_))
    rcases hp' with ⟨rfl, hp'⟩ | ⟨l, xs, e, ys, hi, rfl, hs, hx⟩
    · refine does_neg (by simp) (Does.pure (Does.pure ?_))
      exact ⟨_, .pop_miss (hmiss hp'), stay⟩
    · refine does_pos (h.elem hi (e := e) (by simp)).1 ?_
      obtain ⟨us, vs, rfl, h1, h2⟩ := ho.leave hi
      refine Does.bind ((detach_spec h hi).mono fun _ m' h' => Does.pure (Does.pure ⟨_, .pop_hit (i := e.item) (hfinds h1 hx hs), hc, tb, _, e.item :: det, ?_, h2 l, rfl⟩))
      rw [hlen] at h'; exact h'
  | detach p =>
    obtain ⟨i, l, xs, e, ys, hi, rfl⟩ := locate hok'
    obtain ⟨us, vs, rfl, h1, h2⟩ := ho.leave hi
    refine Does.bind ((detach_spec h hi).mono fun _ m' h' => Does.pure ⟨_, .detach (i := e.item), hc, tb, _, e.item :: det, ?_, h2 l, rfl⟩)
    rw [hlen] at h'; exact h'
  | remove p =>
    obtain ⟨i, l, xs, e, ys, hi, rfl⟩ := locate hok'
    obtain ⟨us, vs, rfl, h1, h2⟩ := ho.leave hi
    unfold callWith remove
    refine Does.bind (Does.bind ((detach_spec h hi).mono fun _ m1 h1 => ?_))
    obtain ⟨q1, x, y, z, q2⟩ := h1.dt e.item (by simp)
    refine does_free q1 q2 (Does.pure ⟨_, .remove (i := e.item), hc, tb, _, det, ?_, h2 l, rfl⟩)
    rw [hlen] at h1
    exact h1.discard (xs := []) rfl
  | discard p =>
    obtain ⟨d, hd, rfl⟩ := hok
    simp only [Spec.HashOrder.State.forget, Multiset.mem_coe] at hd
    obtain ⟨q1, x, y, z, q2⟩ := h.dt d hd
    obtain ⟨xs, ys, rfl⟩ := List.append_of_mem hd
    refine Does.bind (does_free q1 q2 (Does.pure ⟨⟨items, ↑(xs ++ ys)⟩, ?_, hc, tb, bs, _, h.discard rfl, ho, rfl⟩))
    have : ((xs ++ d :: ys : List Item) : Multiset Item) = d ::ₘ ↑(xs ++ ys) := by
      rw [Multiset.cons_coe, Multiset.coe_eq_coe]; exact List.perm_middle
    rw [this]
    exact .discard
  | popAny =>
    rcases popAnyLoop_spec h _ 0 rfl with ⟨j, l, e, ys, hi, hd, r, he⟩ | ⟨he, hr⟩
    · obtain ⟨us, vs, rfl, h1, h2⟩ := ho.leave (xs := []) hi
      refine Does.bind (hd.mono ?_)
      rintro p m' ⟨rfl, h'⟩
      rw [List.drop_zero] at he
      rw [he] at htour
      rw [hlen] at h'
      exact Does.pure ⟨_, .popAny (i := e.item) htour.symm, hc, tb, _, e.item :: det, h', h2 l, rfl⟩
    · rw [List.drop_zero] at he
      rw [he] at hp
      obtain rfl := List.perm_nil.1 hp.symm
      exact Does.bind (hr.does (Does.pure ⟨_, .popAny_empty, stay⟩))
  | getAny =>
    have hr := getNext_spec h _ 0 rfl
    rw [List.drop_zero] at hr
    refine Does.bind (hr.does (Does.pure ⟨_, ?_, stay⟩))
    have : first (ents bs) = head (tour hash cap items) := by
      rw [← htour]; cases ents bs <;> rfl
    rw [this]
    exact .getAny
  | getOther p =>
    obtain ⟨i, l, xs, e, ys, hi, rfl⟩ := locate hok'
    have hpos : Pos bs e (ys ++ ents (bs.drop (i + 1))) := ⟨i, l, xs, ys, hi, rfl⟩
    refine Does.bind ((getOther_spec h hc hpos).does (Does.pure ⟨_, ?_, stay⟩))
    have hsplit : ents bs = (ents (bs.take i) ++ xs) ++ e :: (ys ++ ents (bs.drop (i + 1))) := by
      have h1 : ents (bs.take i ++ bs.drop i) = ents (bs.take i) ++ ents (bs.drop i) := List.flatMap_append
      rw [List.take_append_drop, ents_drop hi] at h1
      rw [h1]
      simp only [List.append_assoc, List.cons_append]
    rw [hsplit, List.map_append, List.map_cons] at htour
    have : first (ys ++ ents (bs.drop (i + 1))) = head ((ys ++ ents (bs.drop (i + 1))).map Ent.item) := by
      cases ys ++ ents (bs.drop (i + 1)) <;> rfl
    rw [this]
    exact .getOther (i := e.item) htour.symm
  | traverse =>
    refine Does.bind ((traverse_spec h hc).does (Does.pure ⟨_, ?_, stay⟩))
    have : (ents bs).map Ent.he = (tour hash cap items).map (·.elem) := by rw [← htour]; simp [Ent.item, Function.comp_def]
    rw [this]
    exact .traverse
  | size =>
    have hr : Run (size t) m (items.length % 2 ^ 64) m := (run_readH h.t0 h.head).bind (Run.pure _ _)
    refine Does.bind (hr.does (Does.pure ⟨_, ?_, stay⟩))
    simp only [ok, Spec.HashOrder.State.forget, Multiset.coe_card] at hok
    rw [Nat.mod_eq_of_lt hok]
    exact .size
  | empty =>
    have hr : Run (empty t) m (items.length % 2 ^ 64 == 0) m := (run_readH h.t0 h.head).bind (Run.pure _ _)
    refine Does.bind (hr.does (Does.pure ⟨_, ?_, stay⟩))
    simp only [ok, Spec.HashOrder.State.forget, Multiset.coe_card] at hok
    rw [Nat.mod_eq_of_lt hok]
    have : (items.length == 0) = items.isEmpty := by cases items <;> rfl
    rw [this]
    exact .empty
  | key p =>
    obtain ⟨i, hi, rfl⟩ := hok
    have hx : i.elem ≠ 0 ∧ ∃ x y z, m.get i.elem = some (.helem ⟨i.key, i.value, x, y, z⟩) := by
      simp only [Spec.HashOrder.State.forget, Multiset.mem_add, Multiset.mem_coe] at hi
      rcases hi with hi | hi
      · obtain ⟨e, he, rfl⟩ := List.mem_map.1 (hp.mem_iff.2 hi)
        exact h.elem' he
      · exact h.dt i hi
    obtain ⟨q1, x, y, z, q2⟩ := hx
    have hr : Run (getKey i.elem) m i.key m := (run_readHE q1 q2).bind (Run.pure _ _)
    exact Does.bind (hr.does (Does.pure ⟨_, .key hi, stay⟩))
  | value p =>
    obtain ⟨i, hi, rfl⟩ := hok
    have hx : i.elem ≠ 0 ∧ ∃ x y z, m.get i.elem = some (.helem ⟨i.key, i.value, x, y, z⟩) := by
      simp only [Spec.HashOrder.State.forget, Multiset.mem_add, Multiset.mem_coe] at hi
      rcases hi with hi | hi
      · obtain ⟨e, he, rfl⟩ := List.mem_map.1 (hp.mem_iff.2 hi)
        exact h.elem' he
      · exact h.dt i hi
    obtain ⟨q1, x, y, z, q2⟩ := hx
    have hr : Run (getValue i.elem) m i.value m := (run_readHE q1 q2).bind (Run.pure _ _)
    exact Does.bind (hr.does (Does.pure ⟨_, .value hi, stay⟩))

theorem call_order {A : Alloc} (hA : A.Good) {F : Funs} {s : Spec.HashOrder.State} (h : OInv (F.hash Ptrs.hash) m0 t cap s m) (op : Op) (hok : ok s.forget op) :
    Does (call A F t op) m (fun r m' => ∃ s', Spec.HashOrder.Step (F.hash Ptrs.hash) (F.cmp Ptrs.cmp 0) cap s op r s' ∧ OInv (F.hash Ptrs.hash) m0 t cap s' m') := by
  have key := callWith_order (cmp := F.cmp Ptrs.cmp 0) hA h op hok
  have h1 := storedHash_spec (F := F) h.forget
  have h2 := storedCmp_spec (F := F) h.forget
  cases op with
  | put k v => exact Does.bind (h1.does (Does.bind (h2.does key)))
  | get k => exact Does.bind (h1.does (Does.bind (h2.does key)))
  | pop k => exact Does.bind (h1.does (Does.bind (h2.does key)))
  | _ => exact key

theorem exec_order {A : Alloc} (hA : A.Good) {F : Funs} (p : Prog) : ∀ {s : Spec.HashOrder.State} {m : Mem}, OInv (F.hash Ptrs.hash) m0 t cap s m →
    Spec.HashOrder.Legal (F.hash Ptrs.hash) (F.cmp Ptrs.cmp 0) cap p s →
    Does (exec A F t p) m (fun rs m' => ∃ s', Spec.HashOrder.Runs (F.hash Ptrs.hash) (F.cmp Ptrs.cmp 0) cap p s rs s' ∧ OInv (F.hash Ptrs.hash) m0 t cap s' m') := by
  induction p with
  | done => intro s m h _; exact Does.pure ⟨s, .done, h⟩
  | call op next ih =>
    intro s m h hleg
    refine Does.bind ((call_order hA h op hleg.1).mono ?_)
    rintro r m1 ⟨s1, h1, h2⟩
    refine Does.bind ((ih r h2 (hleg.2 r s1 h1)).mono ?_)
    rintro rs m2 ⟨s2, h3, h4⟩
    exact Does.pure ⟨s2, .call h1 h3, h4⟩

theorem make_order {A : Alloc} (hA : A.Good) (n : Nat) (m : Mem) :
    Does (make A n Ptrs.hash Ptrs.cmp) m (fun t m' => OInv hash m t (capacity n) ⟨[], 0⟩ m') := by
  refine (make_spec (hash := hash) hA n m).mono fun t m' h => ?_
  obtain ⟨hc, tb, bs, det, h, h1, h2⟩ := h
  have he : ents bs = [] := by
    have := congrArg Multiset.card h1
    rw [Multiset.card_zero, Multiset.coe_card, List.length_map] at this
    exact List.length_eq_zero_iff.1 this.symm
  refine ⟨hc, tb, bs, det, ?_, fun i l es hi => ?_, h2⟩
  · rw [he] at h; exact h
  · cases es with
    | nil => rfl
    | cons e es =>
      have : e ∈ ents bs := mem_ents.2 ⟨i, l, _, hi, by simp⟩
      rw [he] at this; simp at this

end Verif.Hash
