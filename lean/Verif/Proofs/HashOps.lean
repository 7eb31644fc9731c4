import Verif.Proofs.HashTable

/-! The calls of `hashtable.h` on a table in memory. -/

namespace Verif.Hash

variable [Ptrs]

open Spec.Hash (Item)
open CList (Rep addrs hd lst Same Seg)

variable {hash : Nat → Nat} {cmp : Nat → Nat → Int} {m0 m : Mem} {t tb cap sz : Nat} {bs : List Bucket} {det : List Item}

/-- All elements of the table, bucket by bucket. -/
def ents (bs : List Bucket) : List Ent := bs.flatMap (·.2)

omit [Ptrs] in
theorem mem_ents {e : Ent} : e ∈ ents bs ↔ ∃ (i l : Nat) (es : List Ent), bs[i]? = some (l, es) ∧ e ∈ es := by
  simp only [ents, List.mem_flatMap]
  constructor
  · rintro ⟨⟨l, es⟩, h1, h2⟩
    obtain ⟨i, hi⟩ := List.mem_iff_getElem?.1 h1
    exact ⟨i, l, es, hi, h2⟩
  · rintro ⟨i, l, es, h1, h2⟩
    exact ⟨(l, es), List.mem_iff_getElem?.2 ⟨i, h1⟩, h2⟩

omit [Ptrs] in
theorem ents_split {i : Nat} {b : Bucket} (hi : bs[i]? = some b) : ∃ pre post : List Ent, ents bs = pre ++ b.2 ++ post ∧
    ∀ b' : Bucket, ents (bs.set i b') = pre ++ b'.2 ++ post := by
  induction bs generalizing i with
  | nil => simp at hi
  | cons c bs ih =>
    cases i with
    | zero =>
      simp at hi; subst hi
      exact ⟨[], ents bs, by simp [ents], fun b' => by simp [ents]⟩
    | succ i =>
      simp at hi
      obtain ⟨pre, post, h1, h2⟩ := ih hi
      refine ⟨c.2 ++ pre, post, ?_, fun b' => ?_⟩
      · have : ents (c :: bs) = c.2 ++ ents bs := by simp [ents]
        rw [this, h1]; simp
      · have : ents ((c :: bs).set (i + 1) b') = c.2 ++ ents (bs.set i b') := by simp [ents]
        rw [this, h2]; simp

/-- The first element's address, NULL if there is none. -/
def first : List Ent → Nat
  | [] => 0
  | e :: _ => e.he

theorem HMem.lookup (h : HMem hash m0 t tb cap sz bs det m) {i : Nat} (hi : i < cap) : ∃ l es, bs[i]? = some (l, es) := by
  rw [← h.len] at hi
  exact ⟨bs[i].1, bs[i].2, by simp [hi]⟩

theorem HMem.bound (h : HMem hash m0 t tb cap sz bs det m) {i : Nat} {b : Bucket} (hi : bs[i]? = some b) : i < cap := by
  rw [← h.len]; exact (List.getElem?_eq_some_iff.1 hi).1

theorem HMem.nonnull (h : HMem hash m0 t tb cap sz bs det m) {i l : Nat} {xs ys : List Ent} {e : Ent} (hi : bs[i]? = some (l, xs ++ e :: ys)) :
    l ≠ 0 := by
  intro e0; have := (h.bk i _ hi).null e0; simp at this

theorem HMem.rep (h : HMem hash m0 t tb cap sz bs det m) {i l : Nat} {es : List Ent} (hi : bs[i]? = some (l, es)) (hl : l ≠ 0) :
    Rep m l (es.map Ent.pair) := (h.bk i _ hi).list hl

theorem HMem.rep_split (h : HMem hash m0 t tb cap sz bs det m) {i l : Nat} {xs ys : List Ent} {e : Ent} (hi : bs[i]? = some (l, xs ++ e :: ys)) :
    Rep m l (xs.map Ent.pair ++ (e.le, e.he) :: ys.map Ent.pair) := by
  rw [← pair_split]; exact h.rep hi (h.nonnull hi)

theorem HMem.elem (h : HMem hash m0 t tb cap sz bs det m) {i l : Nat} {es : List Ent} {e : Ent} (hi : bs[i]? = some (l, es)) (he : e ∈ es) :
    e.he ≠ 0 ∧ m.get e.he = some (.helem ⟨e.key, e.value, t, i, e.le⟩) ∧ hash e.key % cap = i := (h.bk i _ hi).elem e he

theorem hd_pair (h : HMem hash m0 t tb cap sz bs det m) {i l : Nat} {xs ys : List Ent} (hi : bs[i]? = some (l, xs ++ ys)) :
    hd (ys.map Ent.pair) 0 = 0 ↔ ys = [] := by
  cases ys with
  | nil => simp [hd]
  | cons e ys => simpa [hd, Ent.pair] using (h.rep_split hi).cell.1

theorem getLoop_spec (h : HMem hash m0 t tb cap sz bs det m) {i l : Nat} (k : Nat) (ys : List Ent) : ∀ xs, bs[i]? = some (l, xs ++ ys) →
    Run (getLoop cmp k (hd (ys.map Ent.pair) 0)) m (((ys.find? (fun e => cmp k e.key = 0)).map Ent.he).getD 0) m := by
  induction ys with
  | nil => intro xs _; rw [getLoop]; simp only [List.map_nil, hd, if_true]; exact Run.pure _ _
  | cons e ys ih =>
    intro xs hi
    have hr := h.rep_split hi
    obtain ⟨q1, q2, -⟩ := h.elem hi (e := e) (by simp)
    rw [List.map_cons, show hd (e.pair :: ys.map Ent.pair) 0 = e.le from rfl, getLoop, if_neg hr.cell.1]
    refine (CList.getValue_spec hr).bind ((run_readHE q1 q2).bind ?_)
    by_cases hc : cmp k e.key = 0
    · simp only [hc, if_true, List.find?_cons, decide_true, Option.map_some, Option.getD_some]
      exact Run.pure _ _
    · simp only [hc, if_false, List.find?_cons, decide_false]
      exact (CList.next_spec hr).bind (ih (xs ++ [e]) (by simpa using hi))

/-- Looking for a key: the elements that are seen. -/
def sees (hash : Nat → Nat) (cmp : Nat → Nat → Int) (cap k k' : Nat) : Prop := cmp k k' = 0 ∧ hash k % cap = hash k' % cap

theorem HMem.miss (h : HMem hash m0 t tb cap sz bs det m) {k l : Nat} {es : List Ent} (hi : bs[hash k % cap]? = some (l, es))
    (hn : ∀ e ∈ es, cmp k e.key ≠ 0) : ∀ e ∈ ents bs, ¬ sees hash cmp cap k e.key := by
  rintro e he ⟨h1, h2⟩
  obtain ⟨j, l', es', hj, he⟩ := mem_ents.1 he
  have := (h.elem hj he).2.2
  rw [this] at h2
  subst h2
  rw [hi] at hj
  cases hj
  exact hn e he h1

theorem get_spec (h : HMem hash m0 t tb cap sz bs det m) (k : Nat) :
    ∃ p, Run (get hash cmp t k) m p m ∧ ((p = 0 ∧ ∀ e ∈ ents bs, ¬ sees hash cmp cap k e.key) ∨
      ∃ l xs e ys, bs[hash k % cap]? = some (l, xs ++ e :: ys) ∧ p = e.he ∧ sees hash cmp cap k e.key ∧ ∀ x ∈ xs, cmp k x.key ≠ 0) := by
  have hlt : hash k % cap < cap := Nat.mod_lt _ h.pos
  obtain ⟨l, es, hi⟩ := h.lookup hlt
  by_cases hl : l = 0
  · have he : es = [] := (h.bk _ _ hi).null hl
    subst hl he
    refine ⟨0, ?_, Or.inl ⟨rfl, h.miss hi (by simp)⟩⟩
    refine (run_readH h.t0 h.head).bind ?_
    simp only
    rw [if_neg (Nat.pos_iff_ne_zero.1 h.pos)]
    refine (bucket_does h hi).bind ?_
    exact Run.pure _ _
  · refine ⟨((es.find? (fun e => cmp k e.key = 0)).map Ent.he).getD 0, ?_, ?_⟩
    · refine (run_readH h.t0 h.head).bind ?_
      simp only
      rw [if_neg (Nat.pos_iff_ne_zero.1 h.pos)]
      refine (bucket_does h hi).bind ?_
      simp only
      rw [if_neg hl]
      exact (CList.getFirst_spec (h.rep hi hl)).bind (getLoop_spec (cmp := cmp) h k es [] hi)
    · cases hf : es.find? (fun e => cmp k e.key = 0) with
      | none =>
        left
        refine ⟨rfl, h.miss hi fun e he => ?_⟩
        simpa using List.find?_eq_none.1 hf e he
      | some e =>
        right
        have hm := List.mem_of_find?_eq_some hf
        have hc := List.find?_some hf
        obtain ⟨-, xs, ys, rfl, hx⟩ := List.find?_eq_some_iff_append.1 hf
        exact ⟨l, xs, e, ys, hi, rfl, ⟨by simpa using hc, (h.elem hi hm).2.2.symm⟩, fun x hx' => by simpa using hx x hx'⟩

theorem incSize_spec (h : HMem hash m0 t tb cap sz bs det m) :
    Does (incSize t) m (fun _ m' => HMem hash m0 t tb cap ((sz + 1) % 2 ^ 64) bs det m') := by
  unfold incSize
  exact does_modH h.t0 h.head (h.resize _)

theorem decSize_spec (h : HMem hash m0 t tb cap sz bs det m) :
    Does (decSize t) m (fun _ m' => HMem hash m0 t tb cap ((sz + (2 ^ 64 - 1)) % 2 ^ 64) bs det m') := by
  unfold decSize
  exact does_modH h.t0 h.head (h.resize _)

/-- What `hash_table_put` does: a new element, nothing, or a replacement. -/
inductive PutResult (hash : Nat → Nat) (cmp : Nat → Nat → Int) (m0 : Mem) (t tb cap sz : Nat) (bs : List Bucket) (det : List Item) (k v : Nat)
    (m : Mem) (p : Nat) (m' : Mem) : Prop
  | new (l le he : Nat) (es : List Ent) (hi : ∃ l0, bs[hash k % cap]? = some (l0, es)) (hp : p = 0) (hn : ∀ e ∈ es, cmp k e.key ≠ 0)
      (h : HMem hash m0 t tb cap ((sz + 1) % 2 ^ 64) (bs.set (hash k % cap) (l, es ++ [⟨le, he, k, v⟩])) det m') (h0 : he ≠ 0) (hf : m.get he = none)
  | same (l : Nat) (es : List Ent) (e : Ent) (hi : bs[hash k % cap]? = some (l, es)) (he : e ∈ es) (hc : cmp k e.key = 0) (hv : e.value = v)
      (hp : p = 0) (hm : m' = m) (hx : ∃ xs ys, es = xs ++ e :: ys ∧ ∀ x ∈ xs, cmp k x.key ≠ 0)
  | replace (l le he : Nat) (xs ys : List Ent) (e : Ent) (hi : bs[hash k % cap]? = some (l, xs ++ e :: ys)) (hc : cmp k e.key = 0) (hv : e.value ≠ v)
      (hp : p = e.he) (h : HMem hash m0 t tb cap sz (bs.set (hash k % cap) (l, (xs ++ ys) ++ [⟨le, he, k, v⟩])) (e.item :: det) m')
      (h0 : he ≠ 0) (hf : ∀ f ∈ ents bs, f.he ≠ he) (hg : ∀ d ∈ det, d.elem ≠ he) (hx : ∀ x ∈ xs, cmp k x.key ≠ 0)

theorem putLoop_spec {A : Alloc} (hA : A.Good) (h : HMem hash m0 t tb cap sz bs det m) {l : Nat} (hl : l ≠ 0) (k v : Nat) (ys : List Ent) :
    ∀ xs, bs[hash k % cap]? = some (l, xs ++ ys) → (∀ e ∈ xs, cmp k e.key ≠ 0) →
    Does (putLoop A cmp t (hash k % cap) l k v (hd (ys.map Ent.pair) 0)) m (PutResult hash cmp m0 t tb cap sz bs det k v m) := by
  induction ys with
  | nil =>
    intro xs hi hn
    rw [putLoop]
    refine does_pos rfl ?_
    rw [List.append_nil] at hi
    refine Does.bind ((addElement_spec hA h hi hl rfl v).mono ?_)
    rintro _ m1 ⟨le, he, h1, h2, h3⟩
    refine Does.bind ((incSize_spec h1).mono fun _ m2 h4 => Does.pure ?_)
    exact .new l le he xs ⟨l, hi⟩ rfl hn h4 h2 h3
  | cons e ys ih =>
    intro xs hi hn
    have hr := h.rep_split hi
    obtain ⟨q1, q2, -⟩ := h.elem hi (e := e) (by simp)
    rw [List.map_cons, show hd (e.pair :: ys.map Ent.pair) 0 = e.le from rfl, putLoop]
    refine does_neg hr.cell.1 ?_
    refine Does.bind ((CList.getValue_spec hr).does (Does.bind (does_readHE q1 q2 ?_)))
    by_cases hc : cmp k e.key = 0
    · refine does_pos hc ?_
      have hval : Run (getValue e.he) m e.value m := (run_readHE q1 q2).bind (Run.pure _ _)
      refine Does.bind (hval.does ?_)
      by_cases hv : e.value = v
      · refine does_pos hv (Does.pure ?_)
        exact .same l _ e hi (by simp) hc hv rfl rfl ⟨xs, ys, rfl, hn⟩
      · refine does_neg hv ?_
        refine Does.bind ((removeEntry_spec h hi).mono fun _ m1 h1 => ?_)
        have hlt : hash k % cap < bs.length := (List.getElem?_eq_some_iff.1 hi).1
        have hget : (bs.set (hash k % cap) (l, xs ++ ys))[hash k % cap]? = some (l, xs ++ ys) := by simp [hlt]
        refine Does.bind ((addElement_spec hA h1 hget hl rfl v).mono ?_)
        rintro _ m2 ⟨le, he, h2, h3, h4⟩
        refine Does.pure ?_
        rw [List.set_set] at h2
        have hne : ∀ d ∈ e.item :: det, d.elem ≠ he := by
          rintro d hd rfl
          exact h1.live (mem_owned.2 (Or.inr (Or.inr (Or.inr ⟨d, hd, rfl⟩)))) h4
        refine .replace l le he xs ys e hi hc hv rfl h2 h3 ?_ (fun d hd => hne d (List.mem_cons_of_mem _ hd)) hn
        rintro f hf rfl
        obtain ⟨j, l', es', hj, hf⟩ := mem_ents.1 hf
        by_cases hfe : j = hash k % cap ∧ f ∉ xs ++ ys
        · obtain ⟨rfl, hfe⟩ := hfe
          rw [hi] at hj; cases hj
          have : f = e := by
            simp only [List.mem_append, List.mem_cons, not_or] at hf hfe; tauto
          subst this
          exact hne f.item (by simp) rfl
        · have hlive : ∃ l' es', (bs.set (hash k % cap) (l, xs ++ ys))[j]? = some (l', es') ∧ f ∈ es' := by
            by_cases hjk : j = hash k % cap
            · subst hjk
              refine ⟨l, xs ++ ys, by simp [hlt], ?_⟩
              by_contra hcon; exact hfe ⟨rfl, hcon⟩
            · exact ⟨l', es', by rw [List.getElem?_set_ne (Ne.symm hjk)]; exact hj, hf⟩
          obtain ⟨l2, es2, hj2, hf2⟩ := hlive
          have := (h1.elem hj2 hf2).2.1
          rw [h4] at this; simp at this
    · refine does_neg hc ?_
      refine Does.bind ((CList.next_spec hr).does ?_)
      refine ih (xs ++ [e]) (by simpa using hi) ?_
      intro f hf
      rcases List.mem_append.1 hf with hf | hf
      · exact hn f hf
      · simp at hf; subst hf; exact hc

theorem put_spec {A : Alloc} (hA : A.Good) (h : HMem hash m0 t tb cap sz bs det m) (k v : Nat) :
    Does (put A hash cmp t k v) m (PutResult hash cmp m0 t tb cap sz bs det k v m) := by
  have hlt : hash k % cap < cap := Nat.mod_lt _ h.pos
  obtain ⟨l, es, hi⟩ := h.lookup hlt
  unfold put
  refine Does.bind (does_readH h.t0 h.head ?_)
  refine does_neg (Nat.pos_iff_ne_zero.1 h.pos) ?_
  refine Does.bind ((bucket_does h hi).does ?_)
  by_cases hl : l = 0
  · have he : es = [] := (h.bk _ _ hi).null hl
    subst hl he
    refine does_pos rfl ?_
    have hlt' : hash k % cap < bs.length := (List.getElem?_eq_some_iff.1 hi).1
    have key := newBucket_spec hA h hi (k := fun l => pure ())
      (Q := fun _ m' => ∃ l, l ≠ 0 ∧ HMem hash m0 t tb cap sz (bs.set (hash k % cap) (l, [])) det m' ∧ ∀ a, m'.get a = none → m.get a = none)
      (fun l m' h1 h2 h3 => Does.pure ⟨l, h1, h2, h3⟩)
    have : (do let list ← CList.make A; setBucket t (hash k % cap) list; addElement A t (hash k % cap) k v; incSize t; pure 0 : M Nat) =
        (do let _ ← (do let l ← CList.make A; setBucket t (hash k % cap) l; pure () : M Unit)
            addElement A t (hash k % cap) k v; incSize t; pure 0 : M Nat) := by
      simp
    rw [this]
    refine Does.bind (key.mono ?_)
    rintro _ m1 ⟨l, hl, h1, h2⟩
    have hget : (bs.set (hash k % cap) (l, []))[hash k % cap]? = some (l, []) := by simp [hlt']
    refine Does.bind ((addElement_spec hA h1 hget hl rfl v).mono ?_)
    rintro _ m2 ⟨le, he, h3, h4, h5⟩
    refine Does.bind ((incSize_spec h3).mono fun _ m3 h6 => Does.pure ?_)
    rw [List.set_set] at h6
    exact .new l le he [] ⟨0, hi⟩ rfl (by simp) h6 h4 (h2 _ h5)
  · refine does_neg hl ?_
    refine Does.bind ((CList.getFirst_spec (h.rep hi hl)).does ?_)
    exact putLoop_spec hA h hl k v es [] hi (by simp)

theorem detach_spec (h : HMem hash m0 t tb cap sz bs det m) {i l : Nat} {xs ys : List Ent} {e : Ent} (hi : bs[i]? = some (l, xs ++ e :: ys)) :
    Does (detach t e.he) m (fun _ m' => HMem hash m0 t tb cap ((sz + (2 ^ 64 - 1)) % 2 ^ 64) (bs.set i (l, xs ++ ys)) (e.item :: det) m') := by
  obtain ⟨q1, q2, -⟩ := h.elem hi (e := e) (by simp)
  unfold detach
  refine Does.bind (does_readHE q1 q2 ?_)
  refine Does.bind ((bucket_does h hi).does ?_)
  refine Does.bind ((removeEntry_spec h hi).mono fun _ m1 h1 => ?_)
  exact decSize_spec h1

omit [Ptrs] in
theorem ents_cons (b : Bucket) (bs : List Bucket) : ents (b :: bs) = b.2 ++ ents bs := by simp [ents]

omit [Ptrs] in
theorem drop_eq {i : Nat} {b : Bucket} (hi : bs[i]? = some b) : bs.drop i = b :: bs.drop (i + 1) := by
  obtain ⟨h1, h2⟩ := List.getElem?_eq_some_iff.1 hi
  rw [List.drop_eq_getElem_cons h1, h2]

omit [Ptrs] in
theorem ents_drop {i : Nat} {b : Bucket} (hi : bs[i]? = some b) : ents (bs.drop i) = b.2 ++ ents (bs.drop (i + 1)) := by
  rw [drop_eq hi, ents_cons]

theorem getNext_spec (h : HMem hash m0 t tb cap sz bs det m) : ∀ (n i : Nat), n = cap - i →
    Run (getNext t i) m (first (ents (bs.drop i))) m := by
  intro n
  induction n with
  | zero =>
    intro i hn
    rw [getNext]
    refine (run_readH h.t0 h.head).bind ?_
    simp only
    rw [if_neg (by omega), List.drop_eq_nil_of_le (by rw [h.len]; omega)]
    exact Run.pure _ _
  | succ n ih =>
    intro i hn
    obtain ⟨l, es, hi⟩ := h.lookup (i := i) (by omega)
    rw [getNext]
    refine (run_readH h.t0 h.head).bind ?_
    simp only
    rw [if_pos (by omega)]
    refine (bucket_does h hi).bind ?_
    simp only
    rw [ents_drop hi]
    by_cases hl : l = 0
    · have he : es = [] := (h.bk _ _ hi).null hl
      subst he
      rw [if_pos hl]
      exact ih (i + 1) (by omega)
    · rw [if_neg hl]
      refine (CList.empty_spec (h.rep hi hl)).bind ?_
      cases es with
      | nil => exact ih (i + 1) (by omega)
      | cons e es =>
        simp only [List.map_cons, reduceCtorEq, decide_false, Bool.false_eq_true, if_false]
        refine (CList.getFirst_spec (h.rep hi hl)).bind ?_
        exact CList.getValue_spec (h.rep_split (xs := []) hi)

/-- `e` is in the table and `r` is what a traversal visits after it. -/
def Pos (bs : List Bucket) (e : Ent) (r : List Ent) : Prop :=
  ∃ (i l : Nat) (xs ys : List Ent), bs[i]? = some (l, xs ++ e :: ys) ∧ r = ys ++ ents (bs.drop (i + 1))

omit [Ptrs] in
theorem pos_first : ∀ (n i : Nat), n = bs.length - i → ∀ {e : Ent} {r : List Ent}, ents (bs.drop i) = e :: r → Pos bs e r := by
  intro n
  induction n with
  | zero =>
    intro i hn e r h
    rw [List.drop_eq_nil_of_le (by omega)] at h
    simp [ents] at h
  | succ n ih =>
    intro i hn e r h
    have hi : bs[i]? = some bs[i] := by simp
    rw [ents_drop hi] at h
    cases hes : (bs[i]).2 with
    | nil =>
      rw [hes] at h
      exact ih (i + 1) (by omega) h
    | cons f es =>
      rw [hes] at h
      simp only [List.cons_append, List.cons.injEq] at h
      obtain ⟨rfl, rfl⟩ := h
      exact ⟨i, (bs[i]).1, [], es, by rw [hi, List.nil_append, ← hes], rfl⟩

omit [Ptrs] in
theorem pos_next {e f : Ent} {r : List Ent} (h : Pos bs e (f :: r)) : Pos bs f r := by
  obtain ⟨i, l, xs, ys, h1, h2⟩ := h
  cases ys with
  | nil => exact pos_first _ (i + 1) rfl h2.symm
  | cons g ys =>
    simp only [List.cons_append, List.cons.injEq] at h2
    obtain ⟨rfl, rfl⟩ := h2
    exact ⟨i, l, xs ++ [e], ys, by simpa using h1, rfl⟩

theorem getOther_spec (h : HMem hash m0 t tb cap sz bs det m) (hcap : cap < 2 ^ 64) {e : Ent} {r : List Ent} (hp : Pos bs e r) :
    Run (getOther e.he) m (first r) m := by
  obtain ⟨i, l, xs, ys, hi, rfl⟩ := hp
  obtain ⟨q1, q2, -⟩ := h.elem hi (e := e) (by simp)
  have hlt := h.bound hi
  unfold getOther
  refine (run_readHE q1 q2).bind ?_
  refine (CList.next_spec (h.rep_split hi)).bind ?_
  cases ys with
  | nil =>
    simp only [List.map_nil, hd, ne_eq, not_true_eq_false, if_false, List.nil_append]
    rw [Nat.mod_eq_of_lt (by omega)]
    exact getNext_spec h _ (i + 1) rfl
  | cons f ys =>
    have hi' : bs[i]? = some (l, (xs ++ [e]) ++ f :: ys) := by simpa using hi
    have hr := h.rep_split hi'
    rw [List.map_cons, show hd (f.pair :: ys.map Ent.pair) 0 = f.le from rfl, if_pos hr.cell.1]
    exact CList.getValue_spec hr

/-- `hash_table_get_any` and then `hash_table_get_other` until NULL. -/
def traverseLoop (e : Nat) : M (List Nat) := do
  if e = 0 then pure []
  else
    let n ← getOther e
    let r ← traverseLoop n
    pure (e :: r)
partial_fixpoint

def traverse (table : Nat) : M (List Nat) := do
  let e ← getAny table
  traverseLoop e

theorem traverseLoop_spec (h : HMem hash m0 t tb cap sz bs det m) (hcap : cap < 2 ^ 64) (r : List Ent) :
    (∀ e r', r = e :: r' → Pos bs e r') → Run (traverseLoop (first r)) m (r.map Ent.he) m := by
  induction r with
  | nil => intro _; rw [traverseLoop]; simp only [first, if_true]; exact Run.pure _ _
  | cons e r ih =>
    intro hp
    have hpos := hp e r rfl
    obtain ⟨i, l, xs, ys, hi, -⟩ := id hpos
    rw [traverseLoop, show first (e :: r) = e.he from rfl, if_neg (h.elem hi (e := e) (by simp)).1]
    refine (getOther_spec h hcap hpos).bind ((ih ?_).bind (Run.pure _ _))
    intro f r' e'
    subst e'
    exact pos_next hpos

theorem traverse_spec (h : HMem hash m0 t tb cap sz bs det m) (hcap : cap < 2 ^ 64) : Run (traverse t) m ((ents bs).map Ent.he) m := by
  have := getNext_spec h _ 0 rfl
  rw [List.drop_zero] at this
  refine this.bind (traverseLoop_spec h hcap _ ?_)
  intro e r he
  exact pos_first _ 0 rfl (by rw [List.drop_zero]; exact he)

theorem popAnyLoop_spec (h : HMem hash m0 t tb cap sz bs det m) : ∀ (n i : Nat), n = cap - i →
    (∃ (j l : Nat) (e : Ent) (ys : List Ent), bs[j]? = some (l, e :: ys) ∧
      Does (popAnyLoop t i) m (fun p m' => p = e.he ∧
        HMem hash m0 t tb cap ((sz + (2 ^ 64 - 1)) % 2 ^ 64) (bs.set j (l, ys)) (e.item :: det) m') ∧ ∃ r, ents (bs.drop i) = e :: r) ∨
    (ents (bs.drop i) = [] ∧ Run (popAnyLoop t i) m 0 m) := by
  intro n
  induction n with
  | zero =>
    intro i hn
    right
    rw [List.drop_eq_nil_of_le (by rw [h.len]; omega)]
    refine ⟨rfl, ?_⟩
    rw [popAnyLoop]
    refine (run_readH h.t0 h.head).bind ?_
    simp only
    rw [if_neg (by omega)]
    exact Run.pure _ _
  | succ n ih =>
    intro i hn
    obtain ⟨l, es, hi⟩ := h.lookup (i := i) (by omega)
    have skip : es = [] →
        (∀ (Q : Nat → Mem → Prop), Does (popAnyLoop t (i + 1)) m Q → Does (popAnyLoop t i) m Q) ∧
        (Run (popAnyLoop t (i + 1)) m 0 m → Run (popAnyLoop t i) m 0 m) := by
      intro he
      subst he
      have hk : ∀ {p m'}, Run (popAnyLoop t (i + 1)) m p m' → Run (popAnyLoop t i) m p m' := by
        intro p m' hr
        rw [popAnyLoop]
        refine (run_readH h.t0 h.head).bind ?_
        simp only
        rw [if_pos (by omega)]
        refine (bucket_does h hi).bind ?_
        simp only
        by_cases hl : l = 0
        · rw [if_pos hl]; exact hr
        · rw [if_neg hl]
          refine (CList.empty_spec (h.rep hi hl)).bind ?_
          exact hr
      refine ⟨?_, hk⟩
      rintro Q ⟨p, m', h1, h2⟩
      exact ⟨p, m', hk h1, h2⟩
    cases es with
    | nil =>
      obtain ⟨s1, s2⟩ := skip rfl
      rcases ih (i + 1) (by omega) with ⟨j, l', e, ys, h1, h2, r, h3⟩ | ⟨h1, h2⟩
      · exact Or.inl ⟨j, l', e, ys, h1, s1 _ h2, r, by rw [ents_drop hi, h3]; rfl⟩
      · refine Or.inr ⟨?_, s2 h2⟩
        rw [ents_drop hi, h1]; rfl
    | cons e ys =>
      left
      refine ⟨i, l, e, ys, hi, ?_, _, by rw [ents_drop hi]; rfl⟩
      have hl := h.nonnull (xs := []) hi
      rw [popAnyLoop]
      refine Does.bind (does_readH h.t0 h.head ?_)
      refine does_pos (by simp only; omega) ?_
      refine Does.bind ((bucket_does h hi).does ?_)
      refine does_neg hl ?_
      refine Does.bind ((CList.empty_spec (h.rep hi hl)).does ?_)
      refine does_neg (by simp) ?_
      refine Does.bind ((decSize_spec h).mono fun _ m1 h1 => ?_)
      unfold CList.popFirst
      have hr1 := h1.rep_split (xs := []) hi
      refine Does.bind ((CList.getFirst_spec (h1.rep hi hl)).does ?_)
      refine does_neg hr1.cell.1 ?_
      refine Does.bind ((CList.getValue_spec hr1).does ?_)
      refine Does.bind ((removeEntry_spec (xs := []) h1 hi).mono fun _ m2 h2 => Does.pure ⟨rfl, h2⟩)

end Verif.Hash
