import Verif.Model.HashTable
import Verif.Proofs.List
import Verif.Spec.HashTable

/-! The memory of a hash table (`hashtable.c`) and what each function does to it. -/

namespace Verif.Hash

variable [Ptrs]

open Spec.Hash (Item)
open CList (Rep addrs hd lst Same Seg)

/-- An element in the table: its list element, its own address, its key and value. -/
structure Ent where
  le : Nat
  he : Nat
  key : Nat
  value : Nat

def Ent.item (e : Ent) : Item := ⟨e.he, e.key, e.value⟩
def Ent.pair (e : Ent) : Nat × Nat := (e.le, e.he)

/-- A bucket: its list's address (0 if there is none) and its elements. -/
abbrev Bucket := Nat × List Ent

/-- The blocks of a bucket. -/
def bfoot (b : Bucket) : List Nat := if b.1 = 0 then [] else b.1 :: b.2.map Ent.le ++ b.2.map Ent.he

variable (hash : Nat → Nat)

structure BInv (m : Mem) (t cap i : Nat) (b : Bucket) : Prop where
  null : b.1 = 0 → b.2 = []
  list : b.1 ≠ 0 → Rep m b.1 (b.2.map Ent.pair)
  elem : ∀ e ∈ b.2, e.he ≠ 0 ∧ m.get e.he = some (.helem ⟨e.key, e.value, t, i, e.le⟩) ∧ hash e.key % cap = i
  nodup : (b.2.map Ent.he).Nodup

/-- All blocks that belong to the table or to elements that have left it. -/
def owned (t tb : Nat) (bs : List Bucket) (det : List Item) : List Nat := t :: tb :: bs.flatMap bfoot ++ det.map (·.elem)

/-- Memory holds a table at `t`; all other blocks are as in `m0`. -/
structure HMem (m0 : Mem) (t tb cap sz : Nat) (bs : List Bucket) (det : List Item) (m : Mem) : Prop where
  t0 : t ≠ 0
  tb0 : tb ≠ 0
  len : bs.length = cap
  pos : 0 < cap
  head : m.get t = some (.htable ⟨cap, sz, tb, Ptrs.hash, Ptrs.cmp⟩)
  arr : m.get tb = some (.buckets (bs.map (·.1)))
  bk : ∀ i b, bs[i]? = some b → BInv hash m t cap i b
  dj : ∀ (i j : Nat) b c, i ≠ j → bs[i]? = some b → bs[j]? = some c → ∀ a ∈ bfoot b, a ∉ bfoot c
  dt : ∀ d ∈ det, d.elem ≠ 0 ∧ ∃ x y z, m.get d.elem = some (.helem ⟨d.key, d.value, x, y, z⟩)
  dn : (det.map (·.elem)).Nodup
  dd : ∀ d ∈ det, ∀ (i : Nat) b, bs[i]? = some b → d.elem ∉ bfoot b
  fresh : ∀ a ∈ owned t tb bs det, m0.get a = none
  frame : ∀ a, a ∉ owned t tb bs det → m.get a = m0.get a

variable {hash} {m0 m : Mem} {t tb cap sz : Nat} {bs : List Bucket} {det : List Item}

omit [Ptrs] in
theorem addrs_pair (es : List Ent) : addrs (es.map Ent.pair) = es.map Ent.le := by simp [addrs, Ent.pair, Function.comp_def]

omit [Ptrs] in
theorem mem_bfoot {b : Bucket} {a : Nat} : a ∈ bfoot b ↔ b.1 ≠ 0 ∧ (a = b.1 ∨ a ∈ b.2.map Ent.le ∨ a ∈ b.2.map Ent.he) := by
  unfold bfoot
  by_cases h : b.1 = 0 <;> simp [h]

omit [Ptrs] in
theorem mem_owned {a : Nat} : a ∈ owned t tb bs det ↔ a = t ∨ a = tb ∨ (∃ (i : Nat) (b : Bucket), bs[i]? = some b ∧ a ∈ bfoot b) ∨
    ∃ d ∈ det, d.elem = a := by
  simp only [owned, List.mem_cons, List.mem_append, List.mem_flatMap, List.mem_map, List.cons_append]
  constructor
  · rintro (h | h | ⟨b, h1, h2⟩ | h)
    · exact Or.inl h
    · exact Or.inr (Or.inl h)
    · obtain ⟨i, hi⟩ := List.mem_iff_getElem?.1 h1
      exact Or.inr (Or.inr (Or.inl ⟨i, b, hi, h2⟩))
    · exact Or.inr (Or.inr (Or.inr h))
  · rintro (h | h | ⟨i, b, h1, h2⟩ | h)
    · exact Or.inl h
    · exact Or.inr (Or.inl h)
    · exact Or.inr (Or.inr (Or.inl ⟨b, List.mem_iff_getElem?.2 ⟨i, h1⟩, h2⟩))
    · exact Or.inr (Or.inr (Or.inr h))

omit [Ptrs] in
/-- What kind of block each address of a bucket holds. -/
theorem BInv.kind {i : Nat} {b : Bucket} (h : BInv hash m t cap i b) {a : Nat} (ha : a ∈ bfoot b) :
    (∃ l, m.get a = some (.list l)) ∨ (∃ e, m.get a = some (.lelem e)) ∨ ∃ e, m.get a = some (.helem e) := by
  rw [mem_bfoot] at ha
  obtain ⟨h0, ha⟩ := ha
  have hr := h.list h0
  rcases ha with rfl | ha | ha
  · exact Or.inl ⟨_, hr.header⟩
  · rw [← addrs_pair] at ha
    exact Or.inr (Or.inl (CList.seg_live hr.seg a ha).2)
  · obtain ⟨e, he, rfl⟩ := List.mem_map.1 ha
    exact Or.inr (Or.inr ⟨_, (h.elem e he).2.1⟩)

omit [Ptrs] in
theorem BInv.live {i : Nat} {b : Bucket} (h : BInv hash m t cap i b) {a : Nat} (ha : a ∈ bfoot b) : m.get a ≠ none := by
  rcases h.kind ha with ⟨x, h⟩ | ⟨x, h⟩ | ⟨x, h⟩ <;> simp [h]

omit [Ptrs] in
theorem BInv.congr {m' : Mem} {i : Nat} {b : Bucket} (h : BInv hash m t cap i b) (hs : ∀ a ∈ bfoot b, m'.get a = m.get a) :
    BInv hash m' t cap i b := by
  refine ⟨h.null, fun h0 => (h.list h0).congr fun a ha => hs a ?_, fun e he => ?_, h.nodup⟩
  · rw [addrs_pair] at ha
    rw [mem_bfoot]
    simp only [List.mem_cons] at ha
    exact ⟨h0, by tauto⟩
  · obtain ⟨h1, h2, h3⟩ := h.elem e he
    refine ⟨h1, ?_, h3⟩
    rw [hs e.he, h2]
    rw [mem_bfoot]
    refine ⟨fun h0 => ?_, Or.inr (Or.inr (List.mem_map.2 ⟨e, he, rfl⟩))⟩
    rw [h.null h0] at he; simp at he

theorem HMem.t_tb (h : HMem hash m0 t tb cap sz bs det m) : t ≠ tb := by
  rintro rfl
  have := h.arr
  rw [h.head] at this; simp at this

theorem HMem.t_foot (h : HMem hash m0 t tb cap sz bs det m) {i : Nat} {b : Bucket} (hi : bs[i]? = some b) : t ∉ bfoot b ∧ tb ∉ bfoot b := by
  constructor
  · intro hm
    rcases (h.bk i b hi).kind hm with ⟨x, h'⟩ | ⟨x, h'⟩ | ⟨x, h'⟩ <;> (rw [h.head] at h'; simp at h')
  · intro hm
    rcases (h.bk i b hi).kind hm with ⟨x, h'⟩ | ⟨x, h'⟩ | ⟨x, h'⟩ <;> (rw [h.arr] at h'; simp at h')

theorem HMem.t_det (h : HMem hash m0 t tb cap sz bs det m) {d : Item} (hd : d ∈ det) : d.elem ≠ t ∧ d.elem ≠ tb := by
  obtain ⟨-, x, y, z, h'⟩ := h.dt d hd
  constructor
  · intro e; rw [e, h.head] at h'; simp at h'
  · intro e; rw [e, h.arr] at h'; simp at h'

theorem HMem.live (h : HMem hash m0 t tb cap sz bs det m) {a : Nat} (ha : a ∈ owned t tb bs det) : m.get a ≠ none := by
  rw [mem_owned] at ha
  rcases ha with rfl | rfl | ⟨i, b, h1, h2⟩ | ⟨d, h1, rfl⟩
  · simp [h.head]
  · simp [h.arr]
  · exact (h.bk i b h1).live h2
  · obtain ⟨-, x, y, z, h'⟩ := h.dt d h1
    simp [h']

/-- A change of one bucket; elements may leave it, and new blocks may join it. -/
theorem HMem.update (h : HMem hash m0 t tb cap sz bs det m) {i : Nat} {b b' : Bucket} {sz' : Nat} {det' : List Item} {m' : Mem}
    (hi : bs[i]? = some b)
    (head : m'.get t = some (.htable ⟨cap, sz', tb, Ptrs.hash, Ptrs.cmp⟩)) (arr : m'.get tb = some (.buckets ((bs.set i b').map (·.1))))
    (inv : BInv hash m' t cap i b')
    (rest : ∀ a, a ∉ bfoot b → a ∉ bfoot b' → a ≠ t → a ≠ tb → m'.get a = m.get a)
    (grow : ∀ a ∈ bfoot b', a ∈ bfoot b ∨ m.get a = none)
    (det_new : ∀ d ∈ det', d ∈ det ∨ (d.elem ≠ 0 ∧ d.elem ∈ bfoot b ∧ d.elem ∉ bfoot b' ∧
      ∃ x y z, m'.get d.elem = some (.helem ⟨d.key, d.value, x, y, z⟩)))
    (det_old : ∀ d ∈ det, d ∈ det') (dn : (det'.map (·.elem)).Nodup)
    (gone : ∀ a ∈ bfoot b, a ∉ bfoot b' → (∀ d ∈ det', d.elem ≠ a) → m'.get a = none) :
    HMem hash m0 t tb cap sz' (bs.set i b') det' m' := by
  have hil : i < bs.length := (List.getElem?_eq_some_iff.1 hi).1
  have hset : ∀ (j : Nat) c, (bs.set i b')[j]? = some c → (j = i ∧ c = b') ∨ (j ≠ i ∧ bs[j]? = some c) := by
    intro j c hj
    rw [List.getElem?_set] at hj
    by_cases e : i = j
    · subst e; simp [hil] at hj; exact Or.inl ⟨rfl, hj.symm⟩
    · simp [e] at hj; exact Or.inr ⟨fun h => e h.symm, hj⟩
  have hset' : (bs.set i b')[i]? = some b' := by simp [hil]
  have hsetj : ∀ (j : Nat) c, j ≠ i → bs[j]? = some c → (bs.set i b')[j]? = some c := by
    intro j c hj h; rw [List.getElem?_set_ne (Ne.symm hj)]; exact h
  have hb'j : ∀ (j : Nat) c, j ≠ i → bs[j]? = some c → ∀ a ∈ bfoot c, a ∉ bfoot b' := by
    intro j c hj hc a ha hb
    rcases grow a hb with h1 | h1
    · exact h.dj i j b c (Ne.symm hj) hi hc a h1 ha
    · exact (h.bk j c hc).live ha h1
  have hdetb' : ∀ d ∈ det, d.elem ∉ bfoot b' := by
    intro d hd hb
    rcases grow _ hb with h1 | h1
    · exact h.dd d hd i b hi h1
    · obtain ⟨-, x, y, z, h'⟩ := h.dt d hd
      rw [h'] at h1; simp at h1
  have hsame : ∀ (j : Nat) c, j ≠ i → bs[j]? = some c → ∀ a ∈ bfoot c, m'.get a = m.get a := by
    intro j c hj hc a ha
    refine rest a ?_ (hb'j j c hj hc a ha) ?_ ?_
    · exact fun hb => h.dj i j b c (Ne.symm hj) hi hc a hb ha
    · rintro rfl; exact (h.t_foot hc).1 ha
    · rintro rfl; exact (h.t_foot hc).2 ha
  have hown : ∀ a, a ∈ owned t tb (bs.set i b') det' → a ∈ owned t tb bs det ∨ m.get a = none := by
    intro a ha
    rw [mem_owned] at ha
    rcases ha with rfl | rfl | ⟨j, c, h1, h2⟩ | ⟨d, h1, rfl⟩
    · exact Or.inl (mem_owned.2 (Or.inl rfl))
    · exact Or.inl (mem_owned.2 (Or.inr (Or.inl rfl)))
    · rcases hset j c h1 with ⟨rfl, rfl⟩ | ⟨hj, hc⟩
      · rcases grow a h2 with h3 | h3
        · exact Or.inl (mem_owned.2 (Or.inr (Or.inr (Or.inl ⟨j, b, hi, h3⟩))))
        · exact Or.inr h3
      · exact Or.inl (mem_owned.2 (Or.inr (Or.inr (Or.inl ⟨j, c, hc, h2⟩))))
    · rcases det_new d h1 with h3 | ⟨-, h3, -⟩
      · exact Or.inl (mem_owned.2 (Or.inr (Or.inr (Or.inr ⟨d, h3, rfl⟩))))
      · exact Or.inl (mem_owned.2 (Or.inr (Or.inr (Or.inl ⟨i, b, hi, h3⟩))))
  refine ⟨h.t0, h.tb0, by rw [List.length_set]; exact h.len, h.pos, head, arr, ?_, ?_, ?_, dn, ?_, ?_, ?_⟩
  · intro j c hj
    rcases hset j c hj with ⟨rfl, rfl⟩ | ⟨hj, hc⟩
    · exact inv
    · exact (h.bk j c hc).congr (hsame j c hj hc)
  · intro j k c d hjk hj hk a ha hb
    rcases hset j c hj with ⟨rfl, rfl⟩ | ⟨hj', hc⟩
    · rcases hset k d hk with ⟨rfl, rfl⟩ | ⟨hk', hd⟩
      · exact hjk rfl
      · exact hb'j k d hk' hd a hb ha
    · rcases hset k d hk with ⟨rfl, rfl⟩ | ⟨hk', hd⟩
      · exact hb'j j c hj' hc a ha hb
      · exact h.dj j k c d hjk hc hd a ha hb
  · intro d hd
    rcases det_new d hd with h1 | ⟨h1, -, -, h2⟩
    · obtain ⟨h2, x, y, z, h3⟩ := h.dt d h1
      refine ⟨h2, x, y, z, ?_⟩
      rw [rest _ (h.dd d h1 i b hi) (hdetb' d h1) (h.t_det h1).1 (h.t_det h1).2, h3]
    · exact ⟨h1, h2⟩
  · intro d hd j c hj hc
    rcases det_new d hd with h1 | ⟨-, h1, h2, -⟩
    · rcases hset j c hj with ⟨rfl, rfl⟩ | ⟨hj, hc'⟩
      · exact hdetb' d h1 hc
      · exact h.dd d h1 j c hc' hc
    · rcases hset j c hj with ⟨rfl, rfl⟩ | ⟨hj, hc'⟩
      · exact h2 hc
      · exact h.dj i j b c (Ne.symm hj) hi hc' _ h1 hc
  · intro a ha
    rcases hown a ha with h1 | h1
    · exact h.fresh a h1
    · rw [← h.frame a]
      · exact h1
      · exact fun hm => h.live hm h1
  · intro a ha
    have hat : a ≠ t := fun e => ha (mem_owned.2 (Or.inl e))
    have hatb : a ≠ tb := fun e => ha (mem_owned.2 (Or.inr (Or.inl e)))
    have hab' : a ∉ bfoot b' := fun e => ha (mem_owned.2 (Or.inr (Or.inr (Or.inl ⟨i, b', hset', e⟩))))
    have had' : ∀ d ∈ det', d.elem ≠ a := fun d hd e => ha (mem_owned.2 (Or.inr (Or.inr (Or.inr ⟨d, hd, e⟩))))
    by_cases hab : a ∈ bfoot b
    · rw [gone a hab hab' had', h.fresh a (mem_owned.2 (Or.inr (Or.inr (Or.inl ⟨i, b, hi, hab⟩))))]
    · rw [rest a hab hab' hat hatb, h.frame a]
      rw [mem_owned]
      rintro (e | e | ⟨j, c, h1, h2⟩ | ⟨d, h1, h2⟩)
      · exact hat e
      · exact hatb e
      · by_cases hj : j = i
        · subst hj; rw [hi] at h1; cases h1; exact hab h2
        · exact ha (mem_owned.2 (Or.inr (Or.inr (Or.inl ⟨j, c, hsetj j c hj h1, h2⟩))))
      · exact had' d (det_old d h1) h2

/-- A change of the recorded size only. -/
theorem HMem.resize (h : HMem hash m0 t tb cap sz bs det m) (sz' : Nat) : HMem hash m0 t tb cap sz' bs det (m.set t (.htable ⟨cap, sz', tb, Ptrs.hash, Ptrs.cmp⟩)) := by
  have hne : ∀ a, a ≠ t → (m.set t (.htable ⟨cap, sz', tb, Ptrs.hash, Ptrs.cmp⟩)).get a = m.get a := fun a ha => Mem.get_set_ne (Ne.symm ha) _
  refine ⟨h.t0, h.tb0, h.len, h.pos, by simp, by rw [hne _ h.t_tb.symm]; exact h.arr, ?_, h.dj, ?_, h.dn, h.dd, h.fresh, ?_⟩
  · intro i b hi
    refine (h.bk i b hi).congr fun a ha => hne a ?_
    rintro rfl; exact (h.t_foot hi).1 ha
  · intro d hd
    rw [hne _ (h.t_det hd).1]; exact h.dt d hd
  · intro a ha
    rw [hne a (fun e => ha (mem_owned.2 (Or.inl e)))]; exact h.frame a ha

theorem bucket_does (h : HMem hash m0 t tb cap sz bs det m) {i : Nat} {b : Bucket} (hi : bs[i]? = some b) : Run (bucket t i) m b.1 m := by
  refine (run_readH h.t0 h.head).bind ((run_readB h.tb0 h.arr).bind ?_)
  have : (bs.map (·.1))[i]? = some b.1 := by simp [hi]
  simp only [this]
  exact Run.pure _ _

omit [Ptrs] in
theorem set_fst {i l : Nat} {es es' : List Ent} (hi : bs[i]? = some (l, es)) : (bs.set i (l, es')).map (·.1) = bs.map (·.1) := by
  rw [List.map_set]
  apply List.ext_getElem?
  intro j
  rw [List.getElem?_set]
  by_cases hj : i = j
  · subst hj; simp [hi]; exact (List.getElem?_eq_some_iff.1 hi).1
  · simp [hj]

omit [Ptrs] in
theorem pair_split {es fs : List Ent} {e : Ent} : (es ++ e :: fs).map Ent.pair = es.map Ent.pair ++ (e.le, e.he) :: fs.map Ent.pair := by
  simp [Ent.pair]

/-- `add_element` -/
theorem addElement_spec {A : Alloc} (hA : A.Good) (h : HMem hash m0 t tb cap sz bs det m) {i l k : Nat} {es : List Ent}
    (hi : bs[i]? = some (l, es)) (hl : l ≠ 0) (hk : hash k % cap = i) (v : Nat) :
    Does (addElement A t i k v) m (fun _ m' => ∃ le he, HMem hash m0 t tb cap sz (bs.set i (l, es ++ [⟨le, he, k, v⟩])) det m' ∧
      he ≠ 0 ∧ m.get he = none) := by
  have h0 := hA.nonnull m
  have hf := hA.fresh m
  unfold addElement
  refine Does.bind (does_alloc hA ?_)
  generalize hpick : A.pick m = he at h0 hf
  step; step; step; step
  have hb := h.bk i _ hi
  have hr := hb.list hl
  simp only at hr
  set c : Cell := .helem ⟨k, v, t, i, A.junk⟩ with hc
  have hown : ∀ a ∈ owned t tb bs det, a ≠ he := by rintro a hm rfl; exact h.live hm hf
  have htne : t ≠ he := hown t (mem_owned.2 (Or.inl rfl))
  have htbne : tb ≠ he := hown tb (mem_owned.2 (Or.inr (Or.inl rfl)))
  have hfoot : ∀ a ∈ bfoot (l, es), a ≠ he := fun a ha => hown a (mem_owned.2 (Or.inr (Or.inr (Or.inl ⟨i, _, hi, ha⟩))))
  have hm1 : ∀ a, a ≠ he → ∀ c1 c2 c3 c4 c5, ((((((m.set he c1).set he c2).set he c3).set he c4).set he c5).get a = m.get a) := by
    intro a hne c1 c2 c3 c4 c5
    simp [Mem.get_set, Ne.symm hne]
  generalize hmm : ((((m.set he (.helem ⟨A.junk, A.junk, A.junk, A.junk, A.junk⟩)).set he (.helem ⟨k, A.junk, A.junk, A.junk, A.junk⟩)).set he
    (.helem ⟨k, v, A.junk, A.junk, A.junk⟩)).set he (.helem ⟨k, v, t, A.junk, A.junk⟩)).set he c = m1
  have hsame : ∀ a, a ≠ he → m1.get a = m.get a := by intro a hne; rw [← hmm]; exact hm1 a hne _ _ _ _ _
  have hhe : m1.get he = some c := by rw [← hmm]; simp
  have hr1 : Rep m1 l (es.map Ent.pair) := by
    refine hr.congr fun a ha => hsame a (hfoot a ?_)
    rw [addrs_pair] at ha
    rw [mem_bfoot]
    simp only [List.mem_cons] at ha
    exact ⟨hl, by tauto⟩
  have hbk : Run (bucket t i) m1 l m1 := by
    refine (run_readH (t := ⟨cap, sz, tb, Ptrs.hash, Ptrs.cmp⟩) h.t0 (by rw [hsame t htne, h.head])).bind
      ((run_readB (b := bs.map (·.1)) h.tb0 (by rw [hsame tb htbne, h.arr])).bind ?_)
    have : (bs.map (·.1))[i]? = some l := by simp [hi]
    simp only [this]
    exact Run.pure _ _
  refine Does.bind (hbk.does ?_)
  refine Does.bind ((CList.append_spec hA hr1 he).mono fun le m2 ⟨g1, g2, g3, g4⟩ => ?_)
  have hle : le ≠ he := by rintro rfl; rw [hhe] at g2; simp at g2
  have hhel : he ≠ l := fun e => hfoot l (by rw [mem_bfoot]; exact ⟨hl, Or.inl rfl⟩) e.symm
  have hhees : he ∉ es.map Ent.le := fun e => hfoot he (by rw [mem_bfoot]; exact ⟨hl, Or.inr (Or.inl e)⟩) rfl
  have hhees' : he ∉ es.map Ent.he := fun e => hfoot he (by rw [mem_bfoot]; exact ⟨hl, Or.inr (Or.inr e)⟩) rfl
  have hmle : m.get le = none := by rw [← hsame le hle]; exact g2
  have hhe2 : m2.get he = some c := by
    rw [g4 he (by rw [addrs_pair]; simp only [List.mem_cons, not_or]; exact ⟨hle.symm, hhel, hhees⟩), hhe]
  rw [hc] at hhe2
  step
  refine ⟨le, he, ?_, h0, hf⟩
  have hgrow : ∀ a ∈ bfoot (l, es ++ [⟨le, he, k, v⟩]), a ∈ bfoot (l, es) ∨ a = le ∨ a = he := by
    intro a ha
    rw [mem_bfoot] at ha ⊢
    simp only [List.map_append, List.mem_append, List.map_cons, List.map_nil, List.mem_singleton] at ha ⊢
    tauto
  have hout : ∀ a, a ∉ bfoot (l, es) → a ∉ bfoot (l, es ++ [⟨le, he, k, v⟩]) → a ≠ le ∧ a ≠ he ∧ a ≠ l ∧ a ∉ es.map Ent.le := by
    intro a ha hb
    rw [mem_bfoot] at ha hb
    simp only [List.map_append, List.mem_append, List.map_cons, List.map_nil, List.mem_singleton] at ha hb
    tauto
  have hrest : ∀ a, a ∉ bfoot (l, es) → a ∉ bfoot (l, es ++ [⟨le, he, k, v⟩]) →
      (m2.set he (.helem ⟨k, v, t, i, le⟩)).get a = m.get a := by
    intro a h1 h2
    obtain ⟨e1, e2, e3, e4⟩ := hout a h1 h2
    rw [Mem.get_set_ne (Ne.symm e2), g4 a (by rw [addrs_pair]; simp only [List.mem_cons, not_or]; exact ⟨e1, e3, e4⟩), hsame a e2]
  have hesub : bfoot (l, es) ⊆ bfoot (l, es ++ [⟨le, he, k, v⟩]) := by
    intro a ha
    rw [mem_bfoot] at ha ⊢
    simp only [List.map_append, List.mem_append] at ha ⊢
    tauto
  have hnew : ∀ a ∈ owned t tb bs det, a ∉ bfoot (l, es) → a ∉ bfoot (l, es ++ [⟨le, he, k, v⟩]) := by
    intro a ha h1 h2
    rcases hgrow a h2 with h3 | rfl | rfl
    · exact h1 h3
    · exact h.live ha hmle
    · exact h.live ha hf
  have ht := h.t_foot hi
  refine h.update hi ?_ ?_ ?_ (fun a h1 h2 _ _ => hrest a h1 h2) ?_ (fun d hd => Or.inl hd) (fun d hd => hd) h.dn ?_
  · rw [hrest t ht.1 (hnew t (mem_owned.2 (Or.inl rfl)) ht.1), h.head]
  · rw [hrest tb ht.2 (hnew tb (mem_owned.2 (Or.inr (Or.inl rfl))) ht.2), h.arr, set_fst hi]
  · refine ⟨fun e => absurd e hl, fun _ => ?_, ?_, ?_⟩
    · have : (es ++ [(⟨le, he, k, v⟩ : Ent)]).map Ent.pair = es.map Ent.pair ++ [(le, he)] := by simp [Ent.pair]
      simp only [this]
      refine g1.congr fun a ha => Mem.get_set_ne ?_ _
      rintro rfl
      simp only [addrs, List.map_append, List.mem_cons, List.mem_append, List.map_cons, List.map_nil, List.mem_singleton] at ha
      change _ ∨ he ∈ addrs (es.map Ent.pair) ∨ _ at ha
      rw [addrs_pair] at ha
      rcases ha with ha | ha | ha
      · exact hhel ha
      · exact hhees ha
      · simp at ha; exact hle ha.symm
    · intro e hee
      simp only [List.mem_append, List.mem_singleton] at hee
      rcases hee with hee | rfl
      · obtain ⟨q1, q2, q3⟩ := hb.elem e hee
        have hem : e.he ∈ es.map Ent.he := List.mem_map.2 ⟨e, hee, rfl⟩
        have n1 : e.he ≠ he := by rintro q; rw [q] at hem; exact hhees' hem
        have n2 : e.he ≠ le := by rintro q; rw [q] at q2; rw [hmle] at q2; simp at q2
        have n3 : e.he ≠ l := by rintro q; rw [q, hr.header] at q2; simp at q2
        have n4 : e.he ∉ es.map Ent.le := by
          intro q; rw [← addrs_pair] at q
          obtain ⟨-, x, hx⟩ := CList.seg_live hr.seg _ q
          rw [q2] at hx; simp at hx
        refine ⟨q1, ?_, q3⟩
        rw [Mem.get_set_ne (Ne.symm n1), g4 _ (by rw [addrs_pair]; simp only [List.mem_cons, not_or]; exact ⟨n2, n3, n4⟩), hsame _ n1, q2]
      · exact ⟨h0, by simp, hk⟩
    · simp only [List.map_append, List.map_cons, List.map_nil]
      rw [List.nodup_append]
      refine ⟨hb.nodup, by simp, ?_⟩
      intro a ha b hb e
      simp at hb; subst hb e; exact hhees' ha
  · intro a ha
    rcases hgrow a ha with h3 | rfl | rfl
    · exact Or.inl h3
    · exact Or.inr hmle
    · exact Or.inr hf
  · intro a ha hb
    exact absurd (hesub ha) hb

/-- `list_remove` on a bucket: the element leaves the table. -/
theorem removeEntry_spec (h : HMem hash m0 t tb cap sz bs det m) {i l : Nat} {xs ys : List Ent} {e : Ent}
    (hi : bs[i]? = some (l, xs ++ e :: ys)) :
    Does (CList.remove l e.le) m (fun _ m' => HMem hash m0 t tb cap sz (bs.set i (l, xs ++ ys)) (e.item :: det) m') := by
  have hb := h.bk i _ hi
  have hl : l ≠ 0 := by intro e0; have := hb.null e0; simp at this
  have hr := hb.list hl
  simp only [pair_split] at hr
  refine (CList.remove_spec hr).mono fun _ m' ⟨g1, g2, g3⟩ => ?_
  rw [← pair_split, Same, addrs_pair] at g3
  rw [← List.map_append] at g1
  have hnd := hb.nodup
  have hrn := hr.nodup
  simp only [List.map_append, List.map_cons, List.nodup_append, List.nodup_cons, List.mem_cons] at hnd
  have hlee : e.le ∉ (xs ++ ys).map Ent.le := by
    obtain ⟨n1, n2, -⟩ := CList.nodup_split hrn
    rw [addrs_pair] at n1 n2
    simp only [List.map_append, List.mem_append]; tauto
  have hhee : e.he ∉ (xs ++ ys).map Ent.he := by
    simp only [List.map_append, List.mem_append]
    obtain ⟨-, ⟨q1, -⟩, q2⟩ := hnd
    rintro (q | q)
    · exact q2 _ q e.he (Or.inl rfl) rfl
    · exact q1 q
  have hmem : ∀ f ∈ xs ++ ys, f ∈ xs ++ e :: ys := by intro f hf; simp at hf ⊢; tauto
  have hhe : ∀ f ∈ xs ++ e :: ys, f.he ∉ l :: (xs ++ e :: ys).map Ent.le := by
    intro f hf q
    have q2 := (hb.elem f hf).2.1
    rcases List.mem_cons.1 q with q | q
    · rw [q, hr.header] at q2; simp at q2
    · rw [← addrs_pair, pair_split] at q
      obtain ⟨-, x, hx⟩ := CList.seg_live hr.seg _ q
      rw [q2] at hx; simp at hx
  have hrest : ∀ a, a ∉ bfoot (l, xs ++ e :: ys) → m'.get a = m.get a := by
    intro a ha
    rw [mem_bfoot] at ha
    refine g3 a fun q => ha ⟨hl, ?_⟩
    simp only [List.mem_cons] at q
    tauto
  have hem : e ∈ xs ++ e :: ys := by simp
  have heb : e.he ∈ bfoot (l, xs ++ e :: ys) := by
    rw [mem_bfoot]; exact ⟨hl, Or.inr (Or.inr (List.mem_map.2 ⟨e, hem, rfl⟩))⟩
  have hsub : ∀ a ∈ bfoot (l, xs ++ ys), a ∈ bfoot (l, xs ++ e :: ys) := by
    intro a ha
    rw [mem_bfoot] at ha ⊢
    simp only [List.map_append, List.mem_append, List.map_cons, List.mem_cons] at ha ⊢
    tauto
  have hlhe : e.le ∉ (xs ++ ys).map Ent.he := by
    intro q
    obtain ⟨f, hf, q⟩ := List.mem_map.1 q
    exact hhe f (hmem f hf) (by rw [q]; simp)
  have hehe : e.he ∉ bfoot (l, xs ++ ys) := by
    rw [mem_bfoot]
    rintro ⟨-, q | q | q⟩
    · exact hhe e hem (by simp only at q; simp [q])
    · refine hhe e hem ?_
      simp only [List.map_append, List.mem_append] at q
      simp only [List.map_append, List.mem_append, List.map_cons, List.mem_cons]; tauto
    · exact hhee q
  have ht := h.t_foot hi
  refine h.update hi ?_ ?_ ?_ (fun a h1 _ _ _ => hrest a h1) (fun a ha => Or.inl (hsub a ha)) ?_ (fun d hd => List.mem_cons_of_mem _ hd) ?_ ?_
  · rw [hrest t ht.1, h.head]
  · rw [hrest tb ht.2, h.arr, set_fst hi]
  · refine ⟨fun e0 => absurd e0 hl, fun _ => g1, fun f hf => ?_, ?_⟩
    · obtain ⟨q1, q2, q3⟩ := hb.elem f (hmem f hf)
      exact ⟨q1, by rw [g3 _ (hhe f (hmem f hf)), q2], q3⟩
    · simp only [List.map_append, List.nodup_append]
      obtain ⟨q1, ⟨-, q2⟩, q3⟩ := hnd
      exact ⟨q1, q2, fun a ha b hb => q3 a ha b (Or.inr hb)⟩
  · intro d hd
    rcases List.mem_cons.1 hd with rfl | hd
    · right
      obtain ⟨q1, q2, q3⟩ := hb.elem e hem
      exact ⟨q1, heb, hehe, t, i, e.le, by rw [show (Ent.item e).elem = e.he from rfl, g3 _ (hhe e hem)]; exact q2⟩
    · exact Or.inl hd
  · rw [List.map_cons, List.nodup_cons]
    refine ⟨fun q => ?_, h.dn⟩
    obtain ⟨d, hd, q⟩ := List.mem_map.1 q
    exact h.dd d hd i _ hi (by rw [q]; exact heb)
  · intro a ha hb' hd
    have hae : a ≠ e.he := fun q => hd e.item (by simp) q.symm
    rw [mem_bfoot] at ha hb'
    simp only [List.map_append, List.mem_append, List.map_cons, List.mem_cons] at ha hb'
    have : a = e.le := by tauto
    rw [this]; exact g2

/-- `table->table[i] = make_list()` -/
theorem newBucket_spec {A : Alloc} (hA : A.Good) (h : HMem hash m0 t tb cap sz bs det m) {i : Nat} {es : List Ent} (hi : bs[i]? = some (0, es))
    {Q : Unit → Mem → Prop} {k : Nat → M Unit}
    (hk : ∀ l m', l ≠ 0 → HMem hash m0 t tb cap sz (bs.set i (l, [])) det m' → (∀ a, m'.get a = none → m.get a = none) → Does (k l) m' Q) :
    Does (do let l ← CList.make A; setBucket t i l; k l) m Q := by
  refine Does.bind ((CList.make_spec hA m).mono fun l m1 ⟨g1, g2, g3⟩ => ?_)
  have hl := g1.nonnull
  have hown : ∀ a ∈ owned t tb bs det, a ≠ l := by rintro a hm rfl; exact h.live hm g2
  have htl : t ≠ l := hown t (mem_owned.2 (Or.inl rfl))
  have htbl : tb ≠ l := hown tb (mem_owned.2 (Or.inr (Or.inl rfl)))
  have hs : ∀ a, a ≠ l → m1.get a = m.get a := fun a ha => g3 a (by simp [ha])
  have h1 : m1.get t = some (.htable ⟨cap, sz, tb, Ptrs.hash, Ptrs.cmp⟩) := by rw [hs t htl, h.head]
  have h2 : m1.get tb = some (.buckets (bs.map (·.1))) := by rw [hs tb htbl, h.arr]
  have ht0 := h.t0
  have htb0 := h.tb0
  have hil : i < (bs.map (·.1)).length := by simp; exact (List.getElem?_eq_some_iff.1 hi).1
  unfold setBucket
  refine Does.bind ?_
  step; step
  refine does_pos hil ?_
  apply does_write htb0 h2
  have hs' : ∀ a, a ≠ l → a ≠ tb → (m1.set tb (.buckets ((bs.map (·.1)).set i l))).get a = m.get a := by
    intro a e1 e2; rw [Mem.get_set_ne (Ne.symm e2), hs a e1]
  have hb0 : bfoot (0, es) = [] := by simp [bfoot]
  have hb1 : bfoot (l, []) = [l] := by simp [bfoot, hl]
  refine hk l _ hl (h.update hi ?_ ?_ ?_ ?_ ?_ (fun d hd => Or.inl hd) (fun d hd => hd) h.dn ?_) ?_
  · rw [hs' t htl h.t_tb, h.head]
  · rw [List.map_set]; simp
  · refine ⟨fun _ => rfl, fun _ => g1.congr fun a ha => ?_, fun e he => by simp at he, by simp⟩
    simp at ha; subst ha
    exact Mem.get_set_ne htbl _
  · intro a _ ha _ e2
    rw [hb1] at ha
    exact hs' a (by simpa using ha) e2
  · intro a ha
    rw [hb1] at ha
    simp at ha; subst ha; exact Or.inr g2
  · intro a ha; rw [hb0] at ha; simp at ha
  · intro a ha
    by_cases e1 : a = l
    · subst e1; exact g2
    · by_cases e2 : a = tb
      · subst e2; simp at ha
      · rw [← hs' a e1 e2]; exact ha

/-- `destroy_hash_element` of an element that has left the table. -/
theorem HMem.discard (h : HMem hash m0 t tb cap sz bs det m) {xs ys : List Item} {d : Item} (hd : det = xs ++ d :: ys) :
    HMem hash m0 t tb cap sz bs (xs ++ ys) (m.del d.elem) := by
  have hmem : d ∈ det := by simp [hd]
  have hne : ∀ a, a ≠ d.elem → (m.del d.elem).get a = m.get a := fun a ha => Mem.get_del_ne (Ne.symm ha)
  have hsub : ∀ x ∈ xs ++ ys, x ∈ det := by intro x hx; rw [hd]; simp at hx ⊢; tauto
  have hdn := h.dn
  rw [hd] at hdn
  simp only [List.map_append, List.map_cons, List.nodup_append, List.nodup_cons, List.mem_cons] at hdn
  obtain ⟨q1, ⟨q2, q3⟩, q4⟩ := hdn
  have hxd : ∀ x ∈ xs ++ ys, x.elem ≠ d.elem := by
    intro x hx e
    rcases List.mem_append.1 hx with hx | hx
    · exact q4 x.elem (List.mem_map.2 ⟨x, hx, rfl⟩) d.elem (Or.inl rfl) e
    · exact q2 (by rw [← e]; exact List.mem_map.2 ⟨x, hx, rfl⟩)
  have ht := h.t_det hmem
  refine ⟨h.t0, h.tb0, h.len, h.pos, by rw [hne _ ht.1.symm, h.head], by rw [hne _ ht.2.symm, h.arr], ?_, h.dj, ?_, ?_, ?_, ?_, ?_⟩
  · intro i b hi
    refine (h.bk i b hi).congr fun a ha => hne a ?_
    rintro rfl; exact h.dd d hmem i b hi ha
  · intro x hx
    rw [hne _ (hxd x hx)]; exact h.dt x (hsub x hx)
  · simp only [List.map_append, List.nodup_append]
    exact ⟨q1, q3, fun a ha b hb => q4 a ha b (Or.inr hb)⟩
  · exact fun x hx => h.dd x (hsub x hx)
  · intro a ha
    refine h.fresh a ?_
    rw [mem_owned] at ha ⊢
    rcases ha with ha | ha | ha | ⟨x, hx, ha⟩
    · exact Or.inl ha
    · exact Or.inr (Or.inl ha)
    · exact Or.inr (Or.inr (Or.inl ha))
    · exact Or.inr (Or.inr (Or.inr ⟨x, hsub x hx, ha⟩))
  · intro a ha
    by_cases e : a = d.elem
    · subst e
      rw [Mem.get_del_self, h.fresh]
      exact mem_owned.2 (Or.inr (Or.inr (Or.inr ⟨d, hmem, rfl⟩)))
    · rw [hne a e, h.frame a]
      intro q
      apply ha
      rw [mem_owned] at q ⊢
      rcases q with q | q | q | ⟨x, hx, q⟩
      · exact Or.inl q
      · exact Or.inr (Or.inl q)
      · exact Or.inr (Or.inr (Or.inl q))
      · refine Or.inr (Or.inr (Or.inr ⟨x, ?_, q⟩))
        rw [hd] at hx
        simp only [List.mem_append, List.mem_cons] at hx ⊢
        rcases hx with hx | rfl | hx
        · exact Or.inl hx
        · exact absurd q.symm e
        · exact Or.inr hx

end Verif.Hash
