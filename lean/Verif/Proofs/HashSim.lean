import Verif.Proofs.HashOps

/-! Programs on a hash table against the specification; making and destroying a table. -/

namespace Verif.Hash

variable [Ptrs]

open Spec.Hash (Item State Op Res Prog Step Runs Legal Fresh ok)
open CList (Rep addrs hd lst Same Seg)

variable {hash : Nat → Nat} {cmp : Nat → Nat → Int} {m0 m : Mem} {t tb cap sz : Nat} {bs : List Bucket} {det : List Item}

/-- One call of the specification, in the model. -/
def call (A : Alloc) (F : Funs) (table : Nat) : Op → M Res
  | .put k v => do pure (.ptr (← put A (← storedHash F table) (← storedCmp F table) table k v))
  | .get k => do pure (.ptr (← get (← storedHash F table) (← storedCmp F table) table k))
  | .pop k => do pure (.ptr (← pop (← storedHash F table) (← storedCmp F table) table k))
  | .detach e => do detach table e; pure .unit
  | .remove e => do remove table e; pure .unit
  | .discard e => do destroyElement e; pure .unit
  | .popAny => do pure (.ptr (← popAny table))
  | .getAny => do pure (.ptr (← getAny table))
  | .getOther e => do pure (.ptr (← getOther e))
  | .traverse => do pure (.ptrs (← traverse table))
  | .size => do pure (.num (← size table))
  | .empty => do pure (.bool (← empty table))
  | .key e => do pure (.ptr (← getKey e))
  | .value e => do pure (.ptr (← getValue e))

/-- A program on a table, in the model, with the results of its calls. -/
def exec (A : Alloc) (F : Funs) (table : Nat) : Prog → M (List Res)
  | .done => pure []
  | .call op next => do
    let r ← call A F table op
    let rs ← exec A F table (next r)
    pure (r :: rs)

/-- One call, given the hash function and the comparator. -/
def callWith (A : Alloc) (hash : Nat → Nat) (cmp : Nat → Nat → Int) (table : Nat) : Op → M Res
  | .put k v => do pure (.ptr (← put A hash cmp table k v))
  | .get k => do pure (.ptr (← get hash cmp table k))
  | .pop k => do pure (.ptr (← pop hash cmp table k))
  | .detach e => do detach table e; pure .unit
  | .remove e => do remove table e; pure .unit
  | .discard e => do destroyElement e; pure .unit
  | .popAny => do pure (.ptr (← popAny table))
  | .getAny => do pure (.ptr (← getAny table))
  | .getOther e => do pure (.ptr (← getOther e))
  | .traverse => do pure (.ptrs (← traverse table))
  | .size => do pure (.num (← size table))
  | .empty => do pure (.bool (← empty table))
  | .key e => do pure (.ptr (← getKey e))
  | .value e => do pure (.ptr (← getValue e))

/-- Memory holds a table with the items and loose elements of `s`; the rest is as in `m0`. -/
structure HInv (hash : Nat → Nat) (m0 : Mem) (t cap : Nat) (s : State) (m : Mem) : Prop where
  cap64 : cap < 2 ^ 64
  mem : ∃ tb bs det, HMem hash m0 t tb cap ((ents bs).length % 2 ^ 64) bs det m ∧ s.items = ↑((ents bs).map Ent.item) ∧ s.loose = ↑det

theorem HMem.elem' (h : HMem hash m0 t tb cap sz bs det m) {e : Ent} (he : e ∈ ents bs) :
    e.he ≠ 0 ∧ ∃ x y z, m.get e.he = some (.helem ⟨e.key, e.value, x, y, z⟩) := by
  obtain ⟨i, l, es, hi, he⟩ := mem_ents.1 he
  obtain ⟨h1, h2, -⟩ := h.elem hi he
  exact ⟨h1, _, _, _, h2⟩

omit [Ptrs] in
theorem inc_len (n : Nat) : (n % 2 ^ 64 + 1) % 2 ^ 64 = (n + 1) % 2 ^ 64 := by omega
omit [Ptrs] in
theorem dec_len (n : Nat) : ((n + 1) % 2 ^ 64 + (2 ^ 64 - 1)) % 2 ^ 64 = n % 2 ^ 64 := by omega

theorem fresh_of (h : HMem hash m0 t tb cap sz bs det m) {he : Nat} (h0 : he ≠ 0) (hf : m.get he = none) :
    Fresh ⟨↑((ents bs).map Ent.item), ↑det⟩ he := by
  refine ⟨h0, ?_⟩
  rintro i hi rfl
  simp only [Multiset.mem_add, Multiset.mem_coe, List.mem_map] at hi
  rcases hi with ⟨e, he, rfl⟩ | hi
  · obtain ⟨-, x, y, z, h2⟩ := h.elem' he
    rw [show (Ent.item e).elem = e.he from rfl, h2] at hf; simp at hf
  · obtain ⟨-, x, y, z, h2⟩ := h.dt i hi
    rw [h2] at hf; simp at hf

omit [Ptrs] in
/-- An element leaves bucket `i`: the items are those that remain plus that one. -/
theorem items_split {i l : Nat} {xs ys : List Ent} {e : Ent} (hi : bs[i]? = some (l, xs ++ e :: ys)) (l' : Nat) (zs : List Ent) :
    (((ents bs).map Ent.item : List Item) : Multiset Item) = e.item ::ₘ ↑((ents (bs.set i (l', xs ++ ys))).map Ent.item) ∧
    (ents bs).length = (ents (bs.set i (l', xs ++ ys))).length + 1 ∧
    (((ents (bs.set i (l', xs ++ ys ++ zs))).map Ent.item : List Item) : Multiset Item) =
      ↑(zs.map Ent.item) + ↑((ents (bs.set i (l', xs ++ ys))).map Ent.item) ∧
    (ents (bs.set i (l', xs ++ ys ++ zs))).length = (ents (bs.set i (l', xs ++ ys))).length + zs.length := by
  obtain ⟨pre, post, h1, h2⟩ := ents_split hi
  refine ⟨?_, ?_, ?_, ?_⟩
  · rw [h1, h2, Multiset.cons_coe, Multiset.coe_eq_coe, ← List.map_cons (f := Ent.item)]
    refine List.Perm.map _ ?_
    simp only [List.append_assoc, List.cons_append]
    rw [← List.append_assoc, ← List.append_assoc]
    exact List.perm_middle
  · rw [h1, h2]; simp only [List.length_append, List.length_cons]; omega
  · rw [h2, h2, Multiset.coe_add, Multiset.coe_eq_coe, ← List.map_append]
    refine List.Perm.map _ ?_
    simp only [List.append_assoc]
    have := @List.perm_append_comm _ (pre ++ (xs ++ ys)) zs
    have h3 := this.append_right post
    simpa using h3
  · rw [h2, h2]; simp only [List.length_append]; omega

omit [Ptrs] in
theorem items_add {i l : Nat} {es : List Ent} (hi : bs[i]? = some (l, es)) (l' : Nat) (e : Ent) :
    (((ents (bs.set i (l', es ++ [e]))).map Ent.item : List Item) : Multiset Item) = e.item ::ₘ ↑((ents bs).map Ent.item) ∧
    (ents (bs.set i (l', es ++ [e]))).length = (ents bs).length + 1 := by
  obtain ⟨pre, post, h1, h2⟩ := ents_split hi
  refine ⟨?_, ?_⟩
  · rw [h1, h2, Multiset.cons_coe, Multiset.coe_eq_coe, ← List.map_cons (f := Ent.item)]
    refine List.Perm.map _ ?_
    simp only [List.append_assoc, List.cons_append, List.nil_append]
    rw [← List.append_assoc, ← List.append_assoc]
    exact List.perm_middle
  · rw [h1, h2]; simp only [List.length_append, List.length_cons, List.length_nil]; omega

omit [Ptrs] in
theorem locate {p : Nat} (h : ∃ i ∈ (((ents bs).map Ent.item : List Item) : Multiset Item), i.elem = p) :
    ∃ (i l : Nat) (xs : List Ent) (e : Ent) (ys : List Ent), bs[i]? = some (l, xs ++ e :: ys) ∧ e.he = p := by
  obtain ⟨x, hx, rfl⟩ := h
  simp only [Multiset.mem_coe, List.mem_map] at hx
  obtain ⟨e, he, rfl⟩ := hx
  obtain ⟨i, l, es, hi, he⟩ := mem_ents.1 he
  obtain ⟨xs, ys, rfl⟩ := List.append_of_mem he
  exact ⟨i, l, xs, e, ys, hi, rfl⟩

theorem ents_nodup (h : HMem hash m0 t tb cap sz bs det m) : ((ents bs).map Ent.he).Nodup := by
  have key : ∀ (n i : Nat), n = bs.length - i → ((ents (bs.drop i)).map Ent.he).Nodup := by
    intro n
    induction n with
    | zero => intro i hn; rw [List.drop_eq_nil_of_le (by omega)]; simp [ents]
    | succ n ih =>
      intro i hn
      have hi : bs[i]? = some bs[i] := by simp
      rw [ents_drop hi, List.map_append, List.nodup_append]
      refine ⟨(h.bk i _ hi).nodup, ih (i + 1) (by omega), ?_⟩
      rintro a ha b hb rfl
      obtain ⟨e, he, rfl⟩ := List.mem_map.1 ha
      obtain ⟨f, hf, hfe⟩ := List.mem_map.1 hb
      obtain ⟨j, l, es, hj, hf⟩ := mem_ents.1 hf
      rw [List.getElem?_drop] at hj
      have hne : ∀ {q : Nat} {b : Bucket} {g : Ent}, bs[q]? = some b → g ∈ b.2 → g.he ∈ bfoot b := by
        intro q b g hq hg
        rw [mem_bfoot]
        refine ⟨fun h0 => ?_, Or.inr (Or.inr (List.mem_map.2 ⟨g, hg, rfl⟩))⟩
        rw [(h.bk q b hq).null h0] at hg; simp at hg
      exact h.dj i (i + 1 + j) _ _ (by omega) hi hj e.he (hne hi he) (by rw [← hfe]; exact hne hj hf)
  have := key _ 0 rfl
  rwa [List.drop_zero] at this

omit [Ptrs] in
theorem first_spec (es : List Ent) : (es = [] ∧ first es = 0) ∨ ∃ e r, es = e :: r ∧ first es = e.he := by
  cases es with
  | nil => exact Or.inl ⟨rfl, rfl⟩
  | cons e r => exact Or.inr ⟨e, r, rfl, rfl⟩

omit [Ptrs] in
theorem pos_mem {e f : Ent} {r : List Ent} (h : Pos bs e (f :: r)) : f ∈ ents bs := by
  obtain ⟨i, l, xs, ys, hi, -⟩ := pos_next h
  exact mem_ents.2 ⟨i, l, _, hi, by simp⟩

theorem pos_ne (h : HMem hash m0 t tb cap sz bs det m) {e f : Ent} {r : List Ent} (hp : Pos bs e (f :: r)) : e.he ≠ f.he := by
  obtain ⟨i, l, xs, ys, hi, h2⟩ := hp
  have hn := ents_nodup h
  have : ents (bs.drop i) = xs ++ e :: (f :: r) := by rw [ents_drop hi, h2]; simp
  have hs : ((ents (bs.drop i)).map Ent.he).Nodup := by
    have hsub : (ents (bs.drop i)).Sublist (ents bs) := by
      have : bs = bs.take i ++ bs.drop i := by simp
      conv_rhs => rw [this]
      simp only [ents, List.flatMap_append]
      exact List.sublist_append_right _ _
    exact (hsub.map _).nodup hn
  rw [this] at hs
  simp only [List.map_append, List.map_cons, List.nodup_append, List.nodup_cons, List.mem_cons] at hs
  exact fun e' => hs.2.1.1 (Or.inl e')

theorem callWith_sim {A : Alloc} (hA : A.Good) {s : State} (h : HInv hash m0 t cap s m) (op : Op) (hok : ok s op) :
    Does (callWith A hash cmp t op) m (fun r m' => ∃ s', Step (sees hash cmp cap) s op r s' ∧ HInv hash m0 t cap s' m') := by
  obtain ⟨hc, tb, bs, det, h, hi, hl⟩ := h
  obtain ⟨items, loose⟩ := s
  simp only at hi hl
  subst hi hl
  have stay : HInv hash m0 t cap ⟨↑((ents bs).map Ent.item), ↑det⟩ m := ⟨hc, tb, bs, det, h, rfl, rfl⟩
  have hmi : ∀ {e : Ent}, e ∈ ents bs → e.item ∈ (((ents bs).map Ent.item : List Item) : Multiset Item) := by
    intro e he
    simp only [Multiset.mem_coe, List.mem_map]
    exact ⟨e, he, rfl⟩
  have hmiss : ∀ {k : Nat}, (∀ e ∈ ents bs, ¬ sees hash cmp cap k e.key) →
      ∀ i ∈ (((ents bs).map Ent.item : List Item) : Multiset Item), ¬ sees hash cmp cap k i.key := by
    intro k hk i hi
    simp only [Multiset.mem_coe, List.mem_map] at hi
    obtain ⟨e, he, rfl⟩ := hi
    exact hk e he
  have hdet : ∀ {i l : Nat} {xs ys : List Ent} {e : Ent} (_ : bs[i]? = some (l, xs ++ e :: ys)),
      Does (detach t e.he) m (fun _ m' => HInv hash m0 t cap ⟨↑((ents (bs.set i (l, xs ++ ys))).map Ent.item), ↑(e.item :: det)⟩ m') := by
    intro i l xs ys e hi
    refine (detach_spec h hi).mono fun _ m' h' => ⟨hc, tb, _, _, ?_, rfl, rfl⟩
    rw [(items_split hi l []).2.1, dec_len] at h'
    exact h'
  cases op with
  | put k v =>
    refine Does.bind ((put_spec hA h k v).mono fun p m' hp => Does.pure ?_)
    cases hp with
    | new l le he es hi hp hn h' h0 hf =>
      obtain ⟨l0, hi⟩ := hi
      subst hp
      obtain ⟨e1, e2⟩ := items_add hi l ⟨le, he, k, v⟩
      refine ⟨_, .put_new (hmiss (h.miss hi hn)) (fresh_of h h0 hf), hc, tb,
        bs.set (hash k % cap) (l, es ++ [⟨le, he, k, v⟩]), det, ?_, ?_, rfl⟩
      · rw [e2, ← inc_len]; exact h'
      · simp only; rw [e1]; rfl
    | same l es e hi he hcm hv hp hm =>
      subst hp hm
      have hsee : sees hash cmp cap k e.key := ⟨hcm, (h.elem hi he).2.2.symm⟩
      refine ⟨_, ?_, stay⟩
      rw [← hv]
      exact .put_same (i := e.item) (hmi (mem_ents.2 ⟨_, _, _, hi, he⟩)) hsee
    | replace l le he xs ys e hi hcm hv hp h' h0 hf hg =>
      subst hp
      have hsee : sees hash cmp cap k e.key := ⟨hcm, (h.elem hi (e := e) (by simp)).2.2.symm⟩
      obtain ⟨e1, e2, e3, e4⟩ := items_split hi l [⟨le, he, k, v⟩]
      rw [e1]
      refine ⟨_, .put_replace (i := e.item) (a := he) hsee hv ?_, hc, tb,
        bs.set (hash k % cap) (l, (xs ++ ys) ++ [⟨le, he, k, v⟩]), e.item :: det, ?_, ?_, rfl⟩
      · rw [← e1]
        refine ⟨h0, ?_⟩
        intro i hi
        simp only [Multiset.mem_add, Multiset.mem_coe, List.mem_map] at hi
        rcases hi with ⟨f, hf', rfl⟩ | hi
        · exact hf f hf'
        · exact hg i hi
      · rw [e4, List.length_singleton, ← e2]; exact h'
      · simp only; rw [e3]; rfl
  | get k =>
    obtain ⟨p, hr, hp⟩ := get_spec (cmp := cmp) h k
    refine Does.bind (hr.does (Does.pure ?_))
    rcases hp with ⟨rfl, hp⟩ | ⟨l, xs, e, ys, hi, rfl, hs, -⟩
    · exact ⟨_, .get_miss (hmiss hp), stay⟩
    · exact ⟨_, .get_hit (i := e.item) (hmi (mem_ents.2 ⟨_, _, _, hi, by simp⟩)) hs, stay⟩
  | pop k =>
    obtain ⟨p, hr, hp⟩ := get_spec (cmp := cmp) h k
    refine Does.bind (Does.bind (hr.does ?_))
    rcases hp with ⟨rfl, hp⟩ | ⟨l, xs, e, ys, hi, rfl, hs, -⟩
    · refine does_neg (by simp) (Does.pure (Does.pure ?_))
      exact ⟨_, .pop_miss (hmiss hp), stay⟩
    · refine does_pos (h.elem hi (e := e) (by simp)).1 ?_
      refine Does.bind ((hdet hi).mono fun _ m' h' => Does.pure (Does.pure ⟨_, ?_, h'⟩))
      rw [(items_split hi l []).1]
      exact .pop_hit (i := e.item) hs
  | detach p =>
    obtain ⟨i, l, xs, e, ys, hi, rfl⟩ := locate hok
    refine Does.bind ((hdet hi).mono fun _ m' h' => Does.pure ⟨_, ?_, h'⟩)
    rw [(items_split hi l []).1]
    exact .detach (i := e.item)
  | remove p =>
    obtain ⟨i, l, xs, e, ys, hi, rfl⟩ := locate hok
    unfold callWith remove
    refine Does.bind (Does.bind ((detach_spec h hi).mono fun _ m1 h1 => ?_))
    obtain ⟨q1, x, y, z, q2⟩ := h1.dt e.item (by simp)
    refine does_free q1 q2 (Does.pure ⟨⟨↑((ents (bs.set i (l, xs ++ ys))).map Ent.item), ↑det⟩, ?_, hc, tb, _, det, ?_, rfl, rfl⟩)
    · rw [(items_split hi l []).1]
      exact .remove (i := e.item)
    · rw [(items_split hi l []).2.1, dec_len] at h1
      exact h1.discard (xs := []) rfl
  | discard p =>
    obtain ⟨d, hd, rfl⟩ := hok
    simp only [Multiset.mem_coe] at hd
    obtain ⟨q1, x, y, z, q2⟩ := h.dt d hd
    obtain ⟨xs, ys, rfl⟩ := List.append_of_mem hd
    refine Does.bind (does_free q1 q2 (Does.pure ⟨⟨↑((ents bs).map Ent.item), ↑(xs ++ ys)⟩, ?_, hc, tb, bs, _, h.discard rfl, rfl, rfl⟩))
    have : ((xs ++ d :: ys : List Item) : Multiset Item) = d ::ₘ ↑(xs ++ ys) := by
      rw [Multiset.cons_coe, Multiset.coe_eq_coe]; exact List.perm_middle
    rw [this]
    exact .discard
  | popAny =>
    rcases popAnyLoop_spec h _ 0 rfl with ⟨j, l, e, ys, hi, hd, -⟩ | ⟨he, hr⟩
    · refine Does.bind (hd.mono ?_)
      rintro p m' ⟨rfl, h'⟩
      rw [(items_split (xs := []) hi l []).2.1, dec_len] at h'
      refine Does.pure ⟨⟨_, ↑(e.item :: det)⟩, ?_, hc, tb, _, _, h', rfl, rfl⟩
      rw [(items_split (xs := []) hi l []).1]
      exact .popAny (i := e.item)
    · rw [List.drop_zero] at he
      refine Does.bind (hr.does (Does.pure ⟨⟨_, ↑det⟩, ?_, stay⟩))
      rw [he]
      exact .popAny_empty
  | getAny =>
    have hr := getNext_spec h _ 0 rfl
    rw [List.drop_zero] at hr
    refine Does.bind (hr.does (Does.pure ⟨⟨_, ↑det⟩, ?_, stay⟩))
    rcases first_spec (ents bs) with ⟨e1, e2⟩ | ⟨e, r, e1, e2⟩
    · rw [e2, e1]; exact .getAny_empty
    · rw [e2]; exact .getAny (i := e.item) (hmi (by rw [e1]; simp))
  | getOther p =>
    obtain ⟨i, l, xs, e, ys, hi, rfl⟩ := locate hok
    have hpos : Pos bs e (ys ++ ents (bs.drop (i + 1))) := ⟨i, l, xs, ys, hi, rfl⟩
    have hme : e ∈ ents bs := mem_ents.2 ⟨i, l, _, hi, by simp⟩
    refine Does.bind ((getOther_spec h hc hpos).does (Does.pure ⟨⟨_, ↑det⟩, ?_, stay⟩))
    rcases first_spec (ys ++ ents (bs.drop (i + 1))) with ⟨-, e2⟩ | ⟨f, r, e1, e2⟩
    · rw [e2]; exact .getOther_last (i := e.item) (hmi hme)
    · rw [e2]
      rw [e1] at hpos
      exact .getOther (i := e.item) (j := f.item) (hmi hme) (hmi (pos_mem hpos)) (pos_ne h hpos)
  | traverse =>
    refine Does.bind ((traverse_spec h hc).does (Does.pure ⟨⟨_, ↑det⟩, ?_, stay⟩))
    have : (ents bs).map Ent.he = ((ents bs).map Ent.item).map (·.elem) := by simp [Ent.item, Function.comp_def]
    rw [this]
    exact .traverse rfl
  | size =>
    have hr : Run (size t) m ((ents bs).length % 2 ^ 64) m := (run_readH h.t0 h.head).bind (Run.pure _ _)
    refine Does.bind (hr.does (Does.pure ⟨⟨_, ↑det⟩, ?_, stay⟩))
    simp only [ok, Multiset.coe_card, List.length_map] at hok
    rw [Nat.mod_eq_of_lt hok]
    have := @Step.size (sees hash cmp cap) ⟨↑((ents bs).map Ent.item), ↑det⟩
    simpa using this
  | empty =>
    have hr : Run (empty t) m ((ents bs).length % 2 ^ 64 == 0) m := (run_readH h.t0 h.head).bind (Run.pure _ _)
    refine Does.bind (hr.does (Does.pure ⟨⟨_, ↑det⟩, ?_, stay⟩))
    simp only [ok, Multiset.coe_card, List.length_map] at hok
    rw [Nat.mod_eq_of_lt hok]
    have := @Step.empty (sees hash cmp cap) ⟨↑((ents bs).map Ent.item), ↑det⟩
    simp only [Multiset.coe_card, List.length_map] at this
    rw [show ((ents bs).length == 0) = decide ((ents bs).length = 0) from rfl]
    exact this
  | key p =>
    obtain ⟨i, hi, rfl⟩ := hok
    have hx : i.elem ≠ 0 ∧ ∃ x y z, m.get i.elem = some (.helem ⟨i.key, i.value, x, y, z⟩) := by
      simp only [Multiset.mem_add, Multiset.mem_coe, List.mem_map] at hi
      rcases hi with ⟨e, he, rfl⟩ | hi
      · exact h.elem' he
      · exact h.dt i hi
    obtain ⟨q1, x, y, z, q2⟩ := hx
    have hr : Run (getKey i.elem) m i.key m := (run_readHE q1 q2).bind (Run.pure _ _)
    exact Does.bind (hr.does (Does.pure ⟨⟨_, ↑det⟩, .key hi, stay⟩))
  | value p =>
    obtain ⟨i, hi, rfl⟩ := hok
    have hx : i.elem ≠ 0 ∧ ∃ x y z, m.get i.elem = some (.helem ⟨i.key, i.value, x, y, z⟩) := by
      simp only [Multiset.mem_add, Multiset.mem_coe, List.mem_map] at hi
      rcases hi with ⟨e, he, rfl⟩ | hi
      · exact h.elem' he
      · exact h.dt i hi
    obtain ⟨q1, x, y, z, q2⟩ := hx
    have hr : Run (getValue i.elem) m i.value m := (run_readHE q1 q2).bind (Run.pure _ _)
    exact Does.bind (hr.does (Does.pure ⟨⟨_, ↑det⟩, .value hi, stay⟩))

theorem storedHash_spec {F : Funs} {s : State} (h : HInv hash m0 t cap s m) : Run (storedHash F t) m (F.hash Ptrs.hash) m := by
  obtain ⟨-, tb, bs, det, h, -, -⟩ := h
  exact (run_readH h.t0 h.head).bind (Run.pure _ _)

theorem storedCmp_spec {F : Funs} {s : State} (h : HInv hash m0 t cap s m) : Run (storedCmp F t) m (F.cmp Ptrs.cmp 0) m := by
  obtain ⟨-, tb, bs, det, h, -, -⟩ := h
  exact (run_readH h.t0 h.head).bind (Run.pure _ _)

theorem call_sim {A : Alloc} (hA : A.Good) {F : Funs} {s : State} (h : HInv (F.hash Ptrs.hash) m0 t cap s m) (op : Op) (hok : ok s op) :
    Does (call A F t op) m (fun r m' => ∃ s', Step (sees (F.hash Ptrs.hash) (F.cmp Ptrs.cmp 0) cap) s op r s' ∧ HInv (F.hash Ptrs.hash) m0 t cap s' m') := by
  have key := callWith_sim (cmp := F.cmp Ptrs.cmp 0) hA h op hok
  have h1 := storedHash_spec (F := F) h
  have h2 := storedCmp_spec (F := F) h
  cases op with
  | put k v => exact Does.bind (h1.does (Does.bind (h2.does key)))
  | get k => exact Does.bind (h1.does (Does.bind (h2.does key)))
  | pop k => exact Does.bind (h1.does (Does.bind (h2.does key)))
  | _ => exact key

theorem exec_sim {A : Alloc} (hA : A.Good) {F : Funs} (p : Prog) : ∀ {s : State} {m : Mem}, HInv (F.hash Ptrs.hash) m0 t cap s m →
    Legal (sees (F.hash Ptrs.hash) (F.cmp Ptrs.cmp 0) cap) p s →
    Does (exec A F t p) m (fun rs m' => ∃ s', Runs (sees (F.hash Ptrs.hash) (F.cmp Ptrs.cmp 0) cap) p s rs s' ∧ HInv (F.hash Ptrs.hash) m0 t cap s' m') := by
  induction p with
  | done => intro s m h _; exact Does.pure ⟨s, .done, h⟩
  | call op next ih =>
    intro s m h hleg
    refine Does.bind ((call_sim hA h op hleg.1).mono ?_)
    rintro r m1 ⟨s1, h1, h2⟩
    refine Does.bind ((ih r h2 (hleg.2 r s1 h1)).mono ?_)
    rintro rs m2 ⟨s2, h3, h4⟩
    exact Does.pure ⟨s2, .call h1 h3, h4⟩

/-- The capacity `make_hash_table` picks. -/
def capacity (n : Nat) : Nat := (goodSize n GOOD_SIZES).getD 0

omit [Ptrs] in
theorem goodSize_some (n z : Nat) : ∀ (xs : List Nat), (∀ x ∈ xs, x ≠ 0) → z ≠ 0 →
    ∃ g ∈ xs ++ [z], goodSize n (xs ++ [z, 0]) = some g ∧ (n ≤ g ∨ g = z) := by
  intro xs
  induction xs with
  | nil => intro _ hz; exact ⟨z, by simp, by simp [goodSize], Or.inr rfl⟩
  | cons a xs ih =>
    intro h hz
    have hstep : ∃ b l, xs ++ [z, 0] = b :: l ∧ b ≠ 0 := by
      cases xs with
      | nil => exact ⟨z, [0], rfl, hz⟩
      | cons b xs => exact ⟨b, xs ++ [z, 0], rfl, h b (by simp)⟩
    obtain ⟨b, l, hbl, hb⟩ := hstep
    obtain ⟨g, h1, h2, h3⟩ := ih (fun x hx => h x (List.mem_cons_of_mem _ hx)) hz
    rw [List.cons_append, List.cons_append, hbl, goodSize]
    by_cases hc : a < n
    · rw [if_pos ⟨hb, hc⟩, ← hbl]
      exact ⟨g, by simp at h1 ⊢; tauto, h2, h3⟩
    · rw [if_neg (fun q => hc q.2)]
      exact ⟨a, by simp, rfl, Or.inl (by omega)⟩

omit [Ptrs] in
/-- The capacity is positive, fits, and is at least what was asked for unless that is more than the largest in the list. -/
theorem capacity_spec (n : Nat) : goodSize n GOOD_SIZES = some (capacity n) ∧ 0 < capacity n ∧ capacity n < 2 ^ 64 ∧
    (n ≤ capacity n ∨ capacity n = 1610612741) := by
  obtain ⟨g, h1, h2, h3⟩ := goodSize_some n 1610612741 (GOOD_SIZES.take 25) (by decide) (by decide)
  have hg : ∀ g ∈ GOOD_SIZES.take 25 ++ [1610612741], 0 < g ∧ g < 2 ^ 64 := by decide +kernel
  have h4 : goodSize n GOOD_SIZES = some g := h2
  have : capacity n = g := by simp [capacity, h4]
  rw [this]
  exact ⟨h4, (hg g h1).1, (hg g h1).2, h3⟩

theorem make_spec {A : Alloc} (hA : A.Good) (n : Nat) (m : Mem) : Does (make A n Ptrs.hash Ptrs.cmp) m (fun t m' => HInv hash m t (capacity n) ⟨0, 0⟩ m') := by
  obtain ⟨hg, hpos, h64, -⟩ := capacity_spec n
  unfold make
  refine Does.bind (does_alloc hA ?_)
  have h0 := hA.nonnull m
  have hf := hA.fresh m
  generalize A.pick m = t at h0 hf
  rw [hg]
  step; step; step; step
  refine Does.bind (does_alloc hA ?_)
  generalize hmm : ((((m.set t _).set t _).set t _).set t _).set t _ = m1
  have hm1 : ∀ a, a ≠ t → m1.get a = m.get a := by intro a ha; rw [← hmm]; simp [Mem.get_set, Ne.symm ha]
  have hmt : m1.get t = some (.htable ⟨capacity n, 0, A.junk, Ptrs.hash, Ptrs.cmp⟩) := by rw [← hmm]; simp
  have hb0 := hA.nonnull m1
  have hbf := hA.fresh m1
  generalize A.pick m1 = tb at hb0 hbf
  have hne : tb ≠ t := by rintro rfl; rw [hmt] at hbf; simp at hbf
  step
  have hs : ∀ a, a ≠ t → a ≠ tb → ∀ c d, ((m1.set tb c).set t d).get a = m.get a := by
    intro a h1 h2 c d
    rw [Mem.get_set_ne (Ne.symm h1), Mem.get_set_ne (Ne.symm h2), hm1 a h1]
  have hbk : ∀ (i : Nat) (b : Bucket), (List.replicate (capacity n) ((0, []) : Bucket))[i]? = some b → b = (0, []) := by
    intro i b hi
    rw [List.getElem?_replicate] at hi
    by_cases h : i < capacity n
    · simp [h] at hi; exact hi.symm
    · simp [h] at hi
  have hent : ents (List.replicate (capacity n) ((0, []) : Bucket)) = [] := by
    unfold ents
    rw [List.flatMap_eq_nil_iff]
    intro b hb
    rw [List.mem_replicate] at hb
    rw [hb.2]
  have hown : ∀ a, a ∈ owned t tb (List.replicate (capacity n) ((0, []) : Bucket)) [] ↔ a = t ∨ a = tb := by
    intro a
    rw [mem_owned]
    constructor
    · rintro (h | h | ⟨i, b, h1, h2⟩ | ⟨d, h1, -⟩)
      · exact Or.inl h
      · exact Or.inr h
      · rw [hbk i b h1] at h2; simp [bfoot] at h2
      · simp at h1
    · rintro (h | h)
      · exact Or.inl h
      · exact Or.inr (Or.inl h)
  refine Does.pure ⟨h64, tb, List.replicate (capacity n) (0, []), [], ?_, by rw [hent]; rfl, rfl⟩
  rw [hent]
  refine ⟨h0, hb0, by simp, hpos, by simp, ?_, ?_, ?_, by simp, by simp, by simp, ?_, ?_⟩
  · rw [Mem.get_set_ne (Ne.symm hne)]; simp
  · intro i b hi
    rw [hbk i b hi]
    exact ⟨fun _ => rfl, fun h => absurd rfl h, by simp, by simp⟩
  · intro i j b c _ hi _ a ha
    rw [hbk i b hi] at ha; simp [bfoot] at ha
  · intro a ha
    rcases (hown a).1 ha with rfl | rfl
    · exact hf
    · rw [← hm1 a hne]; exact hbf
  · intro a ha
    rw [hown a] at ha
    push Not at ha
    exact hs a ha.1 ha.2 _ _

omit [Ptrs] in
theorem destroyBucketLoop_spec (es : List Ent) : ∀ {m : Mem} {p : Nat}, Seg m p (es.map Ent.pair) 0 →
    (∀ e ∈ es, e.he ≠ 0 ∧ ∃ x, m.get e.he = some (.helem x)) → (es.map Ent.he).Nodup →
    Does (destroyBucketLoop (hd (es.map Ent.pair) 0)) m (fun _ m' => ∀ a, m'.get a = if a ∈ es.map Ent.he then none else m.get a) := by
  induction es with
  | nil =>
    intro m p _ _ _
    rw [destroyBucketLoop]
    exact does_pos rfl (Does.pure fun a => by simp)
  | cons e es ih =>
    intro m p hs he hn
    rw [List.map_cons, show hd (e.pair :: es.map Ent.pair) 0 = e.le from rfl, destroyBucketLoop]
    obtain ⟨s1, s2, s3⟩ := hs
    refine does_neg s1 ?_
    have hval : Run (CList.getValue e.le) m e.he m := (run_readLE s1 s2).bind (Run.pure _ _)
    obtain ⟨q1, x, q2⟩ := he e (by simp)
    refine Does.bind (hval.does (Does.bind (does_free q1 q2 ?_)))
    have hne : e.he ≠ e.le := by intro h; rw [h, show m.get e.le = _ from s2] at q2; simp at q2
    have s2' : (m.del e.he).get e.le = some (.lelem ⟨e.he, hd (es.map Ent.pair) 0, p⟩) := by rw [Mem.get_del_ne hne]; exact s2
    have hnext : Run (CList.next e.le) (m.del e.he) (hd (es.map Ent.pair) 0) (m.del e.he) := (run_readLE s1 s2').bind (Run.pure _ _)
    refine Does.bind (hnext.does ?_)
    simp only [List.map_cons, List.nodup_cons] at hn
    have hseg : Seg (m.del e.he) e.le (es.map Ent.pair) 0 := by
      refine CList.seg_congr (fun a ha => Mem.get_del_ne ?_) s3
      rintro rfl
      obtain ⟨-, y, hy⟩ := CList.seg_live s3 _ ha
      rw [q2] at hy; simp at hy
    refine (ih hseg ?_ hn.2).mono fun _ m' h' a => ?_
    · intro f hf
      obtain ⟨r1, y, r2⟩ := he f (by simp [hf])
      refine ⟨r1, y, ?_⟩
      rw [Mem.get_del_ne, r2]
      intro h; exact hn.1 (by rw [h]; exact List.mem_map.2 ⟨f, hf, rfl⟩)
    · rw [h' a, List.map_cons]
      by_cases h1 : a ∈ es.map Ent.he
      · rw [if_pos h1, if_pos (List.mem_cons_of_mem _ h1)]
      · rw [if_neg h1]
        by_cases h2 : a = e.he
        · subst h2; simp
        · rw [Mem.get_del_ne (Ne.symm h2), if_neg]
          simp only [List.mem_cons, not_or]; exact ⟨h2, h1⟩

/-- The blocks of the first `i` buckets. -/
def before (bs : List Bucket) (i : Nat) : List Nat := (bs.take i).flatMap bfoot

omit [Ptrs] in
theorem mem_before {a i : Nat} : a ∈ before bs i ↔ ∃ (j : Nat) (b : Bucket), j < i ∧ bs[j]? = some b ∧ a ∈ bfoot b := by
  unfold before
  rw [List.mem_flatMap]
  constructor
  · rintro ⟨b, h1, h2⟩
    obtain ⟨j, hj⟩ := List.mem_iff_getElem?.1 h1
    rw [List.getElem?_take] at hj
    by_cases h : j < i
    · rw [if_pos h] at hj; exact ⟨j, b, h, hj, h2⟩
    · rw [if_neg h] at hj; simp at hj
  · rintro ⟨j, b, h1, h2, h3⟩
    exact ⟨b, List.mem_iff_getElem?.2 ⟨j, by rw [List.getElem?_take, if_pos h1]; exact h2⟩, h3⟩

theorem destroyLoop_spec (h : HMem hash m0 t tb cap sz bs det m) : ∀ (n i : Nat) (m1 : Mem), n = cap - i →
    (∀ a, m1.get a = if a ∈ before bs i then none else m.get a) →
    Does (destroyLoop t i) m1 (fun _ m' => ∀ a, m'.get a = if a ∈ before bs cap then none else m.get a) := by
  intro n
  induction n with
  | zero =>
    intro i m1 hn hm
    have hb : ∀ a, a ∈ before bs i ↔ a ∈ before bs cap := by
      intro a
      rw [mem_before, mem_before]
      constructor
      · rintro ⟨j, b, h1, h2, h3⟩; exact ⟨j, b, h.bound h2, h2, h3⟩
      · rintro ⟨j, b, h1, h2, h3⟩; exact ⟨j, b, by omega, h2, h3⟩
    have ht : m1.get t = some (.htable ⟨cap, sz, tb, Ptrs.hash, Ptrs.cmp⟩) := by
      rw [hm t, if_neg, h.head]
      rw [mem_before]; rintro ⟨j, b, -, h2, h3⟩; exact (h.t_foot h2).1 h3
    rw [destroyLoop]
    refine Does.bind (does_readH h.t0 ht (does_neg (by simp only; omega) (Does.pure fun a => ?_)))
    rw [hm a]; simp only [hb a]
  | succ n ih =>
    intro i m1 hn hm
    have ht : m1.get t = some (.htable ⟨cap, sz, tb, Ptrs.hash, Ptrs.cmp⟩) := by
      rw [hm t, if_neg, h.head]
      rw [mem_before]; rintro ⟨j, b, -, h2, h3⟩; exact (h.t_foot h2).1 h3
    have htb : m1.get tb = some (.buckets (bs.map (·.1))) := by
      rw [hm tb, if_neg, h.arr]
      rw [mem_before]; rintro ⟨j, b, -, h2, h3⟩; exact (h.t_foot h2).2 h3
    obtain ⟨l, es, hi⟩ := h.lookup (i := i) (by omega)
    have hfoot : ∀ a ∈ bfoot (l, es), m1.get a = m.get a := by
      intro a ha
      rw [hm a, if_neg]
      rw [mem_before]; rintro ⟨j, b, h1, h2, h3⟩; exact h.dj i j _ b (by omega) hi h2 a ha h3
    have hbi := (h.bk i _ hi).congr hfoot
    have hbk : Run (bucket t i) m1 l m1 := by
      refine (run_readH h.t0 ht).bind ((run_readB h.tb0 htb).bind ?_)
      have : (bs.map (·.1))[i]? = some l := by simp [hi]
      simp only [this]
      exact Run.pure _ _
    have hsucc : ∀ a, a ∈ before bs (i + 1) ↔ a ∈ before bs i ∨ a ∈ bfoot (l, es) := by
      intro a
      rw [mem_before, mem_before]
      constructor
      · rintro ⟨j, b, h1, h2, h3⟩
        by_cases hj : j = i
        · subst hj; rw [hi] at h2; cases h2; exact Or.inr h3
        · exact Or.inl ⟨j, b, by omega, h2, h3⟩
      · rintro (⟨j, b, h1, h2, h3⟩ | h3)
        · exact ⟨j, b, by omega, h2, h3⟩
        · exact ⟨i, _, by omega, hi, h3⟩
    rw [destroyLoop]
    refine Does.bind (does_readH h.t0 ht (does_pos (by simp only; omega) ?_))
    refine Does.bind (hbk.does ?_)
    by_cases hl : l = 0
    · refine does_neg (by simp [hl]) ?_
      refine ih (i + 1) m1 (by omega) fun a => ?_
      rw [hm a]
      have hsame : a ∈ before bs (i + 1) ↔ a ∈ before bs i := by
        rw [hsucc a, show bfoot (l, es) = [] by simp [bfoot, hl]]; simp
      simp only [hsame]
    · refine does_pos hl ?_
      have hr := hbi.list hl
      simp only at hr
      refine Does.bind ((CList.getFirst_spec hr).does ?_)
      refine Does.bind ((destroyBucketLoop_spec es hr.seg (fun e he => ⟨(hbi.elem e he).1, _, (hbi.elem e he).2.1⟩) hbi.nodup).mono fun _ m2 h2 => ?_)
      have hr2 : Rep m2 l (es.map Ent.pair) := by
        refine hr.congr fun a ha => ?_
        rw [h2 a, if_neg]
        intro hc
        obtain ⟨e, he, rfl⟩ := List.mem_map.1 hc
        have q := (hbi.elem e he).2.1
        rcases List.mem_cons.1 ha with ha | ha
        · rw [ha, hr.header] at q; simp at q
        · obtain ⟨-, y, hy⟩ := CList.seg_live hr.seg _ ha
          rw [q] at hy; simp at hy
      refine Does.bind ((CList.destroy_spec hr2).mono fun _ m3 h3 => ?_)
      refine ih (i + 1) m3 (by omega) fun a => ?_
      rw [h3 a, h2 a, hm a, addrs_pair]
      have hbf : a ∈ bfoot (l, es) ↔ a ∈ l :: es.map Ent.le ∨ a ∈ es.map Ent.he := by
        rw [mem_bfoot, List.mem_cons, or_assoc]
        exact ⟨fun q => q.2, fun q => ⟨hl, q⟩⟩
      by_cases c1 : a ∈ l :: es.map Ent.le
      · rw [if_pos c1, if_pos ((hsucc a).2 (Or.inr (hbf.2 (Or.inl c1))))]
      · rw [if_neg c1]
        by_cases c2 : a ∈ es.map Ent.he
        · rw [if_pos c2, if_pos ((hsucc a).2 (Or.inr (hbf.2 (Or.inr c2))))]
        · rw [if_neg c2]
          have hsame : a ∈ before bs (i + 1) ↔ a ∈ before bs i := by
            rw [hsucc a, hbf]; tauto
          simp only [hsame]

/-- `destroy_hash_table` leaves only the elements that had left the table. -/
theorem destroy_spec (h : HMem hash m0 t tb cap sz bs det m) :
    Does (destroy t) m (fun _ m' => ∀ a, m'.get a = if a ∈ det.map (·.elem) then m.get a else m0.get a) := by
  unfold destroy
  refine Does.bind ((destroyLoop_spec h _ 0 m rfl (fun a => by simp [before])).mono fun _ m1 hm => ?_)
  have ht : m1.get t = some (.htable ⟨cap, sz, tb, Ptrs.hash, Ptrs.cmp⟩) := by
    rw [hm t, if_neg, h.head]
    rw [mem_before]; rintro ⟨j, b, -, h2, h3⟩; exact (h.t_foot h2).1 h3
  have htb : m1.get tb = some (.buckets (bs.map (·.1))) := by
    rw [hm tb, if_neg, h.arr]
    rw [mem_before]; rintro ⟨j, b, -, h2, h3⟩; exact (h.t_foot h2).2 h3
  refine Does.bind (does_readH h.t0 ht ?_)
  refine Does.bind (does_free h.tb0 htb ?_)
  refine does_free h.t0 (c := .htable ⟨cap, sz, tb, Ptrs.hash, Ptrs.cmp⟩) (by rw [Mem.get_del_ne h.t_tb.symm]; exact ht) ?_
  intro a
  rw [Mem.get_del, Mem.get_del, hm a]
  have hbef : a ∈ before bs cap ↔ ∃ (j : Nat) (b : Bucket), bs[j]? = some b ∧ a ∈ bfoot b := by
    rw [mem_before]
    constructor
    · rintro ⟨j, b, h1, h2, h3⟩; exact ⟨j, b, h2, h3⟩
    · rintro ⟨j, b, h2, h3⟩; exact ⟨j, b, h.bound h2, h2, h3⟩
  by_cases hd : a ∈ det.map (·.elem)
  · obtain ⟨d, hd', rfl⟩ := List.mem_map.1 hd
    rw [if_neg (h.t_det hd').1.symm, if_neg (h.t_det hd').2.symm, if_pos hd, if_neg]
    rw [hbef]; rintro ⟨j, b, h2, h3⟩; exact h.dd d hd' j b h2 h3
  · rw [if_neg hd]
    by_cases ho : a ∈ owned t tb bs det
    · rw [h.fresh a ho]
      rw [mem_owned] at ho
      rcases ho with rfl | rfl | ho | ⟨d, h1, h2⟩
      · simp
      · by_cases hh : t = a <;> simp [hh]
      · rw [if_pos (hbef.2 ho)]; simp
      · exact absurd (List.mem_map.2 ⟨d, h1, h2⟩) hd
    · rw [← h.frame a ho]
      rw [mem_owned] at ho
      push Not at ho
      rw [if_neg (Ne.symm ho.1), if_neg (Ne.symm ho.2.1), if_neg]
      rw [hbef]; rintro ⟨j, b, h2, h3⟩; exact ho.2.2.1 j b h2 h3

end Verif.Hash
