import Verif.Proofs.AvlDetach

/-! The calls that only look at a tree. -/

namespace Verif.Avl

variable [Ptrs]

open Spec.Avl (Item Order LastWith FirstWith)
open T

variable {m m' : Mem} {tree n : Nat} {c d : Ctx} {t : T} {cmp : Nat → Nat → Int}

/-- Ascending keys. -/
def Asc (cmp : Nat → Nat → Int) (items : List Item) : Prop := items.Pairwise (fun i j => cmp i.key j.key < 0)

namespace Order

omit [Ptrs] in
theorem le_lt (o : Order cmp) {a b c : Nat} (h1 : cmp a b ≤ 0) (h2 : cmp b c < 0) : cmp a c < 0 := by
  by_contra h
  have h3 : cmp c a ≤ 0 := by have := o.anti a c; have := o.anti c a; omega
  have h4 := o.trans c a b h3 h1
  have := o.anti b c; omega

omit [Ptrs] in
theorem lt_le (o : Order cmp) {a b c : Nat} (h1 : cmp a b < 0) (h2 : cmp b c ≤ 0) : cmp a c < 0 := by
  by_contra h
  have h3 : cmp c a ≤ 0 := by have := o.anti a c; have := o.anti c a; omega
  have h4 := o.trans b c a h2 h3
  have := o.anti a b; omega

omit [Ptrs] in
theorem neg (o : Order cmp) (a b : Nat) : (cmp a b < 0 ↔ 0 < cmp b a) ∧ (0 < cmp a b ↔ cmp b a < 0) ∧ (cmp a b = 0 ↔ cmp b a = 0) := by
  have := o.anti a b; have := o.anti b a
  refine ⟨?_, ?_, ?_⟩ <;> omega

end Order

omit [Ptrs] in
theorem Asc.parts {i : Item} {xs ys : List Item} (h : Asc cmp (xs ++ i :: ys)) :
    Asc cmp xs ∧ Asc cmp ys ∧ (∀ j ∈ xs, cmp j.key i.key < 0) ∧ (∀ j ∈ ys, cmp i.key j.key < 0) := by
  rw [Asc, List.pairwise_append, List.pairwise_cons] at h
  exact ⟨h.1, h.2.1.2, fun j hj => h.2.2 j hj i (by simp), h.2.1.1⟩

omit [Ptrs] in
theorem getLoop_spec (cmp : Nat → Nat → Int) (k : Nat) : ∀ (t : T) (p : Nat), Rep m p t → Does (getLoop cmp k t.ptr) m (fun a m' => m' = m ∧
    ((∃ i ∈ t.items, cmp k i.key = 0 ∧ a = i.elem) ∨ (a = 0 ∧ (Order cmp → Asc cmp t.items → ∀ i ∈ t.items, cmp k i.key ≠ 0)))) := by
  intro t
  induction t with
  | nil =>
    intro p _
    rw [getLoop]
    exact does_neg (by simp) (Does.pure ⟨rfl, Or.inr ⟨rfl, by simp [items]⟩⟩)
  | node i b l r ihl ihr =>
    rintro p ⟨h0, h1, hl, hr⟩
    rw [getLoop]
    refine does_pos h0 ?_
    simp only [key, ptr_node, left, right]
    steps
    by_cases hc : cmp k i.key = 0
    · exact does_pos hc (Does.pure ⟨rfl, Or.inl ⟨i, by simp [items], hc, rfl⟩⟩)
    refine does_neg hc ?_
    by_cases hg : cmp k i.key > 0
    · refine does_pos hg ?_
      steps
      refine (ihr _ hr).mono ?_
      rintro a m' ⟨rfl, ⟨j, hj, h2, h3⟩ | ⟨rfl, h2⟩⟩
      · exact ⟨rfl, Or.inl ⟨j, by simp [items, hj], h2, h3⟩⟩
      · refine ⟨rfl, Or.inr ⟨rfl, fun o ha j hj => ?_⟩⟩
        obtain ⟨-, a2, a3, -⟩ := Asc.parts (i := i) ha
        simp only [items, List.mem_append, List.mem_cons] at hj
        rcases hj with hj | rfl | hj
        · have := Order.lt_le o (a3 j hj) (by have := o.anti i.key k; omega : cmp i.key k ≤ 0)
          have := o.anti j.key k; omega
        · exact hc
        · exact h2 o a2 j hj
    · refine does_neg hg ?_
      steps
      refine (ihl _ hl).mono ?_
      rintro a m' ⟨rfl, ⟨j, hj, h2, h3⟩ | ⟨rfl, h2⟩⟩
      · exact ⟨rfl, Or.inl ⟨j, by simp [items, hj], h2, h3⟩⟩
      · refine ⟨rfl, Or.inr ⟨rfl, fun o ha j hj => ?_⟩⟩
        obtain ⟨a1, -, -, a4⟩ := Asc.parts (i := i) ha
        simp only [items, List.mem_append, List.mem_cons] at hj
        rcases hj with hj | rfl | hj
        · exact h2 o a1 j hj
        · exact hc
        · have := Order.lt_le o (by omega : cmp k i.key < 0) (Int.le_of_lt (a4 j hj))
          omega

/-- The last item with `P`, else `cand`. -/
def LastOr (P : Item → Prop) (items : List Item) (cand p : Nat) : Prop :=
  (∃ xs i ys, items = xs ++ i :: ys ∧ P i ∧ (∀ j ∈ ys, ¬ P j) ∧ p = i.elem) ∨ ((∀ j ∈ items, ¬ P j) ∧ p = cand)

/-- The first item with `P`, else `cand`. -/
def FirstOr (P : Item → Prop) (items : List Item) (cand p : Nat) : Prop :=
  (∃ xs i ys, items = xs ++ i :: ys ∧ P i ∧ (∀ j ∈ xs, ¬ P j) ∧ p = i.elem) ∨ ((∀ j ∈ items, ¬ P j) ∧ p = cand)

section
variable {P : Item → Prop} {i : Item} {L R : List Item} {cand a : Nat}

omit [Ptrs] in
theorem lastOr_right (hi : P i) (h : LastOr P R i.elem a) : LastOr P (L ++ i :: R) cand a := by
  rcases h with ⟨xs, j, ys, rfl, h1, h2, h3⟩ | ⟨h1, h2⟩
  · exact Or.inl ⟨L ++ i :: xs, j, ys, by simp, h1, h2, h3⟩
  · exact Or.inl ⟨L, i, R, rfl, hi, h1, h2⟩

omit [Ptrs] in
theorem lastOr_left (hi : ¬ P i) (hr : ∀ j ∈ R, ¬ P j) (h : LastOr P L cand a) : LastOr P (L ++ i :: R) cand a := by
  rcases h with ⟨xs, j, ys, rfl, h1, h2, h3⟩ | ⟨h1, h2⟩
  · refine Or.inl ⟨xs, j, ys ++ i :: R, by simp, h1, ?_, h3⟩
    intro k hk
    simp only [List.mem_append, List.mem_cons] at hk
    rcases hk with hk | rfl | hk
    · exact h2 k hk
    · exact hi
    · exact hr k hk
  · refine Or.inr ⟨?_, h2⟩
    intro k hk
    simp only [List.mem_append, List.mem_cons] at hk
    rcases hk with hk | rfl | hk
    · exact h1 k hk
    · exact hi
    · exact hr k hk

omit [Ptrs] in
theorem firstOr_left (hi : P i) (h : FirstOr P L i.elem a) : FirstOr P (L ++ i :: R) cand a := by
  rcases h with ⟨xs, j, ys, rfl, h1, h2, h3⟩ | ⟨h1, h2⟩
  · exact Or.inl ⟨xs, j, ys ++ i :: R, by simp, h1, h2, h3⟩
  · exact Or.inl ⟨L, i, R, rfl, hi, h1, h2⟩

omit [Ptrs] in
theorem firstOr_right (hi : ¬ P i) (hr : ∀ j ∈ L, ¬ P j) (h : FirstOr P R cand a) : FirstOr P (L ++ i :: R) cand a := by
  rcases h with ⟨xs, j, ys, rfl, h1, h2, h3⟩ | ⟨h1, h2⟩
  · refine Or.inl ⟨L ++ i :: xs, j, ys, by simp, h1, ?_, h3⟩
    intro k hk
    simp only [List.mem_append, List.mem_cons] at hk
    rcases hk with hk | rfl | hk
    · exact hr k hk
    · exact hi
    · exact h2 k hk
  · refine Or.inr ⟨?_, h2⟩
    intro k hk
    simp only [List.mem_append, List.mem_cons] at hk
    rcases hk with hk | rfl | hk
    · exact hr k hk
    · exact hi
    · exact h1 k hk

/-- A result is an item or the candidate. -/
def OneOf (items : List Item) (cand a : Nat) : Prop := (∃ i ∈ items, a = i.elem) ∨ a = cand

omit [Ptrs] in
theorem OneOf.left (h : OneOf L cand a) : OneOf (L ++ i :: R) cand a := by
  rcases h with ⟨j, hj, h⟩ | h
  · exact Or.inl ⟨j, by simp [hj], h⟩
  · exact Or.inr h
omit [Ptrs] in
theorem OneOf.right (h : OneOf R cand a) : OneOf (L ++ i :: R) cand a := by
  rcases h with ⟨j, hj, h⟩ | h
  · exact Or.inl ⟨j, by simp [hj], h⟩
  · exact Or.inr h
omit [Ptrs] in
theorem OneOf.left' (h : OneOf L i.elem a) : OneOf (L ++ i :: R) cand a := by
  rcases h with ⟨j, hj, h⟩ | h
  · exact Or.inl ⟨j, by simp [hj], h⟩
  · exact Or.inl ⟨i, by simp, h⟩
omit [Ptrs] in
theorem OneOf.right' (h : OneOf R i.elem a) : OneOf (L ++ i :: R) cand a := by
  rcases h with ⟨j, hj, h⟩ | h
  · exact Or.inl ⟨j, by simp [hj], h⟩
  · exact Or.inl ⟨i, by simp, h⟩
end

omit [Ptrs] in
theorem beforeLoop_spec (cmp : Nat → Nat → Int) (k : Nat) : ∀ (t : T) (p cand : Nat), Rep m p t → Does (beforeLoop cmp k t.ptr cand) m
    (fun a m' => m' = m ∧ OneOf t.items cand a ∧ (Order cmp → Asc cmp t.items → LastOr (fun i => cmp i.key k < 0) t.items cand a)) := by
  intro t
  induction t with
  | nil =>
    intro p cand _
    rw [beforeLoop]
    exact does_neg (by simp) (Does.pure ⟨rfl, Or.inr rfl, fun _ _ => Or.inr ⟨by simp [items], rfl⟩⟩)
  | node i b l r ihl ihr =>
    rintro p cand ⟨h0, h1, hl, hr⟩
    rw [beforeLoop]
    refine does_pos h0 ?_
    simp only [key, ptr_node, left, right]
    steps
    by_cases hc : cmp k i.key ≤ 0
    · refine does_pos hc ?_
      steps
      refine (ihl _ _ hl).mono ?_
      rintro a m' ⟨rfl, h2, h3⟩
      refine ⟨rfl, h2.left, fun o ha => ?_⟩
      obtain ⟨a1, -, -, a4⟩ := Asc.parts (i := i) ha
      refine lastOr_left ?_ ?_ (h3 o a1)
      · have := o.anti i.key k; omega
      · intro j hj
        have := Order.le_lt o hc (a4 j hj)
        have := o.anti j.key k; omega
    · refine does_neg hc ?_
      steps
      refine (ihr _ _ hr).mono ?_
      rintro a m' ⟨rfl, h2, h3⟩
      refine ⟨rfl, h2.right', fun o ha => ?_⟩
      obtain ⟨-, a2, -, -⟩ := Asc.parts (i := i) ha
      exact lastOr_right (by have := o.anti i.key k; omega) (h3 o a2)

omit [Ptrs] in
theorem onOrBeforeLoop_spec (cmp : Nat → Nat → Int) (k : Nat) : ∀ (t : T) (p cand : Nat), Rep m p t → Does (onOrBeforeLoop cmp k t.ptr cand) m
    (fun a m' => m' = m ∧ OneOf t.items cand a ∧ (Order cmp → Asc cmp t.items → LastOr (fun i => cmp i.key k ≤ 0) t.items cand a)) := by
  intro t
  induction t with
  | nil =>
    intro p cand _
    rw [onOrBeforeLoop]
    exact does_neg (by simp) (Does.pure ⟨rfl, Or.inr rfl, fun _ _ => Or.inr ⟨by simp [items], rfl⟩⟩)
  | node i b l r ihl ihr =>
    rintro p cand ⟨h0, h1, hl, hr⟩
    rw [onOrBeforeLoop]
    refine does_pos h0 ?_
    simp only [key, ptr_node, left, right]
    steps
    by_cases hc : cmp k i.key < 0
    · refine does_pos hc ?_
      steps
      refine (ihl _ _ hl).mono ?_
      rintro a m' ⟨rfl, h2, h3⟩
      refine ⟨rfl, h2.left, fun o ha => ?_⟩
      obtain ⟨a1, -, -, a4⟩ := Asc.parts (i := i) ha
      refine lastOr_left ?_ ?_ (h3 o a1)
      · have := o.anti k i.key; omega
      · intro j hj
        have := Order.lt_le o hc (Int.le_of_lt (a4 j hj))
        have := o.anti k j.key; omega
    · refine does_neg hc ?_
      steps
      refine (ihr _ _ hr).mono ?_
      rintro a m' ⟨rfl, h2, h3⟩
      refine ⟨rfl, h2.right', fun o ha => ?_⟩
      obtain ⟨-, a2, -, -⟩ := Asc.parts (i := i) ha
      exact lastOr_right (by have := o.anti k i.key; omega) (h3 o a2)

omit [Ptrs] in
theorem afterLoop_spec (cmp : Nat → Nat → Int) (k : Nat) : ∀ (t : T) (p cand : Nat), Rep m p t → Does (afterLoop cmp k t.ptr cand) m
    (fun a m' => m' = m ∧ OneOf t.items cand a ∧ (Order cmp → Asc cmp t.items → FirstOr (fun i => 0 < cmp i.key k) t.items cand a)) := by
  intro t
  induction t with
  | nil =>
    intro p cand _
    rw [afterLoop]
    exact does_neg (by simp) (Does.pure ⟨rfl, Or.inr rfl, fun _ _ => Or.inr ⟨by simp [items], rfl⟩⟩)
  | node i b l r ihl ihr =>
    rintro p cand ⟨h0, h1, hl, hr⟩
    rw [afterLoop]
    refine does_pos h0 ?_
    simp only [key, ptr_node, left, right]
    steps
    by_cases hc : cmp k i.key ≥ 0
    · refine does_pos hc ?_
      steps
      refine (ihr _ _ hr).mono ?_
      rintro a m' ⟨rfl, h2, h3⟩
      refine ⟨rfl, h2.right, fun o ha => ?_⟩
      obtain ⟨-, a2, a3, -⟩ := Asc.parts (i := i) ha
      have hik : cmp i.key k ≤ 0 := by have := o.anti k i.key; omega
      refine firstOr_right (by omega) ?_ (h3 o a2)
      intro j hj
      have := Order.lt_le o (a3 j hj) hik
      omega
    · refine does_neg hc ?_
      steps
      refine (ihl _ _ hl).mono ?_
      rintro a m' ⟨rfl, h2, h3⟩
      refine ⟨rfl, h2.left', fun o ha => ?_⟩
      obtain ⟨a1, -, -, -⟩ := Asc.parts (i := i) ha
      exact firstOr_left (by have := o.anti k i.key; omega) (h3 o a1)

omit [Ptrs] in
theorem onOrAfterLoop_spec (cmp : Nat → Nat → Int) (k : Nat) : ∀ (t : T) (p cand : Nat), Rep m p t → Does (onOrAfterLoop cmp k t.ptr cand) m
    (fun a m' => m' = m ∧ OneOf t.items cand a ∧ (Order cmp → Asc cmp t.items → FirstOr (fun i => 0 ≤ cmp i.key k) t.items cand a)) := by
  intro t
  induction t with
  | nil =>
    intro p cand _
    rw [onOrAfterLoop]
    exact does_neg (by simp) (Does.pure ⟨rfl, Or.inr rfl, fun _ _ => Or.inr ⟨by simp [items], rfl⟩⟩)
  | node i b l r ihl ihr =>
    rintro p cand ⟨h0, h1, hl, hr⟩
    rw [onOrAfterLoop]
    refine does_pos h0 ?_
    simp only [key, ptr_node, left, right]
    steps
    by_cases hc : cmp k i.key > 0
    · refine does_pos hc ?_
      steps
      refine (ihr _ _ hr).mono ?_
      rintro a m' ⟨rfl, h2, h3⟩
      refine ⟨rfl, h2.right, fun o ha => ?_⟩
      obtain ⟨-, a2, a3, -⟩ := Asc.parts (i := i) ha
      have hik : cmp i.key k < 0 := by have := o.anti i.key k; omega
      refine firstOr_right (by omega) ?_ (h3 o a2)
      intro j hj
      have := Order.lt_le o (a3 j hj) (Int.le_of_lt hik)
      omega
    · refine does_neg hc ?_
      steps
      refine (ihl _ _ hl).mono ?_
      rintro a m' ⟨rfl, h2, h3⟩
      refine ⟨rfl, h2.left', fun o ha => ?_⟩
      obtain ⟨a1, -, -, -⟩ := Asc.parts (i := i) ha
      exact firstOr_left (by have := o.anti i.key k; omega) (h3 o a1)

/-- The first element, or NULL. -/
def hd : List Item → Nat
  | [] => 0
  | i :: _ => i.elem

/-- The last element, or NULL. -/
def lst : List Item → Nat
  | [] => 0
  | [i] => i.elem
  | _ :: i :: xs => lst (i :: xs)

omit [Ptrs] in
theorem lst_snoc (xs : List Item) (i : Item) : lst (xs ++ [i]) = i.elem := by
  induction xs with
  | nil => rfl
  | cons x xs ih => cases xs <;> simp_all [lst]

omit [Ptrs] in
theorem firstWith_hd (xs : List Item) : FirstWith (fun _ => True) xs (hd xs) := by
  cases xs with
  | nil => exact Or.inr ⟨by simp, rfl⟩
  | cons i xs => exact Or.inl ⟨[], i, xs, rfl, trivial, by simp, rfl⟩

omit [Ptrs] in
theorem lastWith_lst (xs : List Item) : LastWith (fun _ => True) xs (lst xs) := by
  rcases List.eq_nil_or_concat xs with rfl | ⟨ys, i, rfl⟩
  · exact Or.inr ⟨by simp, rfl⟩
  · rw [List.concat_eq_append]
    exact Or.inl ⟨ys, i, [], rfl, trivial, by simp, lst_snoc _ _⟩

omit [Ptrs] in
theorem hd_append (xs ys : List Item) (h : xs ≠ []) : hd (xs ++ ys) = hd xs := by
  cases xs with
  | nil => exact absurd rfl h
  | cons => rfl

omit [Ptrs] in
theorem lst_append (xs ys : List Item) (h : ys ≠ []) : lst (xs ++ ys) = lst ys := by
  rcases List.eq_nil_or_concat ys with rfl | ⟨zs, i, rfl⟩
  · exact absurd rfl h
  · rw [List.concat_eq_append, ← List.append_assoc, lst_snoc, lst_snoc]

omit [Ptrs] in
theorem leftmost_hd {p : Nat} (h : Rep m p t) (hn : t ≠ nil) : Does (leftmostLoop t.ptr) m (fun a m' => m' = m ∧ a = hd t.items) := by
  refine (leftmost_spec t p h hn).mono ?_
  rintro a _ ⟨rfl, d, y, b, r, hd', rfl, rfl⟩
  obtain ⟨B, e⟩ := plug_lefts d hd'
  exact ⟨rfl, by rw [e]; rfl⟩

omit [Ptrs] in
theorem rightmost_lst {p : Nat} (h : Rep m p t) (hn : t ≠ nil) : Does (rightmostLoop t.ptr) m (fun a m' => m' = m ∧ a = lst t.items) := by
  refine (rightmost_spec t p h hn).mono ?_
  rintro a _ ⟨rfl, d, y, b, r, hd', rfl, rfl⟩
  obtain ⟨B, e⟩ := plug_rights d hd'
  exact ⟨rfl, by rw [e]; simp only [items]; rw [← List.append_assoc, lst_snoc]⟩

omit [Ptrs] in
theorem items_ne_nil (h : t ≠ nil) : t.items ≠ [] := by cases t <;> simp_all [items]

/-- Going up to the next element. -/
theorem nextLoop_spec : ∀ (c : Ctx) (t : T), Z m tree n c t → t ≠ nil → Does (nextLoop t.ptr) m (fun a m' => m' = m ∧
    ∃ A B, (∀ t', (plug t' c).items = A ++ t'.items ++ B) ∧ a = hd B) := by
  intro c
  induction c with
  | nil =>
    intro t h hn
    obtain ⟨h0, e, he, hp, -⟩ := h.sub.top hn
    rw [nextLoop]
    simp only [parent]
    steps
    refine does_neg (by simp [hp]) ?_
    steps
    exact ⟨rfl, [], [], by simp [plug], by simp [hp, hd]⟩
  | cons f c ih =>
    intro t h hn
    obtain ⟨h0, e, he, hp, -⟩ := h.sub.top hn
    have ho := h.ptr_out hn
    obtain ⟨f0, f1, -⟩ := h.around.ctx
    have hz := Z.up.1 h
    rw [nextLoop]
    simp only [parent, right]
    steps
    rw [par_cons] at hp
    refine does_pos (by rw [hp]; exact f0) ?_
    steps
    rw [hp]
    cases f with
    | l i b r =>
      simp only [Fr.item, Fr.cell] at f0 f1 hp ⊢
      steps
      refine does_neg (sib_ptr_ne ho h0) ?_
      steps
      obtain ⟨A, B, hs⟩ := plug_split c
      exact ⟨rfl, A, i :: r.items ++ B, fun t' => by simp [plug, hs, Fr.fill, items], by rw [hp]; rfl⟩
    | r i b l =>
      simp only [Fr.item, Fr.cell] at f0 f1 hp ⊢
      steps
      refine does_pos rfl ?_
      steps
      rw [hp]
      refine (ih _ hz (by simp [Fr.fill])).mono ?_
      rintro a _ ⟨rfl, A, B, hs, rfl⟩
      exact ⟨rfl, A ++ l.items ++ [i], B, fun t' => by simp [plug, hs, Fr.fill, items], rfl⟩

theorem previousLoop_spec : ∀ (c : Ctx) (t : T), Z m tree n c t → t ≠ nil → Does (previousLoop t.ptr) m (fun a m' => m' = m ∧
    ∃ A B, (∀ t', (plug t' c).items = A ++ t'.items ++ B) ∧ a = lst A) := by
  intro c
  induction c with
  | nil =>
    intro t h hn
    obtain ⟨h0, e, he, hp, -⟩ := h.sub.top hn
    rw [previousLoop]
    simp only [parent]
    steps
    refine does_neg (by simp [hp]) ?_
    steps
    exact ⟨rfl, [], [], by simp [plug], by simp [hp, lst]⟩
  | cons f c ih =>
    intro t h hn
    obtain ⟨h0, e, he, hp, -⟩ := h.sub.top hn
    have ho := h.ptr_out hn
    obtain ⟨f0, f1, -⟩ := h.around.ctx
    have hz := Z.up.1 h
    rw [previousLoop]
    simp only [parent, left]
    steps
    rw [par_cons] at hp
    refine does_pos (by rw [hp]; exact f0) ?_
    steps
    rw [hp]
    cases f with
    | r i b r =>
      simp only [Fr.item, Fr.cell] at f0 f1 hp ⊢
      steps
      refine does_neg (sib_ptr_ne ho h0) ?_
      steps
      obtain ⟨A, B, hs⟩ := plug_split c
      exact ⟨rfl, A ++ r.items ++ [i], B, fun t' => by simp [plug, hs, Fr.fill, items], by rw [hp, lst_snoc]⟩
    | l i b l =>
      simp only [Fr.item, Fr.cell] at f0 f1 hp ⊢
      steps
      refine does_pos rfl ?_
      steps
      rw [hp]
      refine (ih _ hz (by simp [Fr.fill])).mono ?_
      rintro a _ ⟨rfl, A, B, hs, rfl⟩
      exact ⟨rfl, A, i :: l.items ++ B, fun t' => by simp [plug, hs, Fr.fill, items], rfl⟩

omit [Ptrs] in
/-- Every item has its place in the tree. -/
theorem find_place : ∀ (t : T) {i : Item}, i ∈ t.items → ∃ c b l r, t = plug (node i b l r) c := by
  intro t
  induction t with
  | nil => intro i h; simp [items] at h
  | node j b l r ihl ihr =>
    intro i h
    simp only [items, List.mem_append, List.mem_cons] at h
    rcases h with h | rfl | h
    · obtain ⟨c, b', l', r', e⟩ := ihl h
      exact ⟨c ++ [.l j b r], b', l', r', by rw [plug_append, ← e]; rfl⟩
    · exact ⟨[], b, l, r, rfl⟩
    · obtain ⟨c, b', l', r', e⟩ := ihr h
      exact ⟨c ++ [.r j b l], b', l', r', by rw [plug_append, ← e]; rfl⟩

/-- Whatever way the surroundings are split, the neighbours are the same. -/
theorem place_split {i : Item} {b : Int} {l r : T} {A B xs ys : List Item} (h : Z m tree n [] (plug (node i b l r) c))
    (hs : ∀ t', (plug t' c).items = A ++ t'.items ++ B) (hi : (plug (node i b l r) c).items = xs ++ i :: ys) :
    xs = A ++ l.items ∧ ys = r.items ++ B := by
  have hn := (Z.plug.2 h).items_nodup
  rw [hi] at hn
  have hx : i ∉ xs ++ ys := (List.nodup_cons.1 ((List.perm_middle.nodup_iff).1 hn)).1
  rw [hs] at hi
  have : xs ++ i :: ys = (A ++ l.items) ++ i :: (r.items ++ B) := by rw [← hi]; simp [items]
  exact middle_unique this hx

theorem next_spec {i : Item} {xs ys : List Item} (h : Z m tree n [] t) (hi : t.items = xs ++ i :: ys) :
    Does (next i.elem) m (fun a m' => m' = m ∧ a = hd ys) := by
  obtain ⟨c, b, l, r, rfl⟩ := find_place t (i := i) (by rw [hi]; simp)
  have hz := Z.plug.2 h
  have hr := hz.sub.2.2.2
  obtain ⟨A0, B0, hs0⟩ := plug_split c
  simp only [next]
  refine Does.bind ((nextDescendant_spec hz.sub).mono ?_)
  rintro a _ ⟨rfl, ⟨hr0, rfl⟩ | ⟨d, y, b2, r2, hd', hrr, rfl⟩⟩
  · refine does_neg (by simp) ?_
    refine (nextLoop_spec c _ hz (by simp)).mono ?_
    rintro a _ ⟨rfl, A, B, hs, rfl⟩
    obtain ⟨-, h2⟩ := place_split h hs hi
    exact ⟨rfl, by rw [h2, hr0]; rfl⟩
  · obtain ⟨-, h2⟩ := place_split h hs0 hi
    obtain ⟨B, e⟩ := plug_lefts d hd'
    refine does_pos ?_ (Does.pure ⟨rfl, ?_⟩)
    · rw [hrr] at hr; exact (rep_plug.1 hr).2.1
    · rw [h2, hrr, e]; rfl

theorem previous_spec {i : Item} {xs ys : List Item} (h : Z m tree n [] t) (hi : t.items = xs ++ i :: ys) :
    Does (previous i.elem) m (fun a m' => m' = m ∧ a = lst xs) := by
  obtain ⟨c, b, l, r, rfl⟩ := find_place t (i := i) (by rw [hi]; simp)
  have hz := Z.plug.2 h
  have hl := hz.sub.2.2.1
  obtain ⟨A0, B0, hs0⟩ := plug_split c
  simp only [previous]
  refine Does.bind ((previousDescendant_spec hz.sub).mono ?_)
  rintro a _ ⟨rfl, ⟨hr0, rfl⟩ | ⟨d, y, b2, r2, hd', hrr, rfl⟩⟩
  · refine does_neg (by simp) ?_
    refine (previousLoop_spec c _ hz (by simp)).mono ?_
    rintro a _ ⟨rfl, A, B, hs, rfl⟩
    obtain ⟨h2, -⟩ := place_split h hs hi
    exact ⟨rfl, by rw [h2, hr0]; simp [items]⟩
  · obtain ⟨h2, -⟩ := place_split h hs0 hi
    obtain ⟨B, e⟩ := plug_rights d hd'
    refine does_pos ?_ (Does.pure ⟨rfl, ?_⟩)
    · rw [hrr] at hl; exact (rep_plug.1 hl).2.1
    · rw [h2, hrr, e]
      simp only [items]
      rw [← List.append_assoc, ← List.append_assoc, lst_snoc]

section
variable (h : Z m tree n [] t)
include h

theorem root_spec {Q : Nat → Mem → Prop} (q : Q t.ptr m) : Does (root tree) m Q := by
  have h1 := h.around.root; have h0 := h.around.tree0
  simp only [root]
  steps
  exact q

theorem empty_spec : Does (empty tree) m (fun a m' => m' = m ∧ a = decide (t.items.length = 0)) := by
  simp only [empty]
  refine Does.bind (root_spec h (Does.pure ⟨rfl, ?_⟩))
  cases t with
  | nil => simp [items]
  | node i b l r => have h0 := h.sub.1; simp [h0, items]

theorem size_spec : Does (size tree) m (fun a m' => m' = m ∧ a = n) := by
  have h1 := h.around.root; have h0 := h.around.tree0
  simp only [size]
  steps
  exact ⟨rfl, rfl⟩

theorem get_spec (cmp : Nat → Nat → Int) (k : Nat) : Does (get cmp tree k) m (fun a m' => m' = m ∧
    ((∃ i ∈ t.items, cmp k i.key = 0 ∧ a = i.elem) ∨ (a = 0 ∧ (Order cmp → Asc cmp t.items → ∀ i ∈ t.items, cmp k i.key ≠ 0)))) :=
  Does.bind (root_spec h (getLoop_spec cmp k t _ h.sub))

theorem getBefore_spec (cmp : Nat → Nat → Int) (k : Nat) : Does (getBefore cmp tree k) m (fun a m' => m' = m ∧ OneOf t.items 0 a ∧
    (Order cmp → Asc cmp t.items → LastOr (fun i => cmp i.key k < 0) t.items 0 a)) :=
  Does.bind (root_spec h (beforeLoop_spec cmp k t _ 0 h.sub))

theorem getOnOrBefore_spec (cmp : Nat → Nat → Int) (k : Nat) : Does (getOnOrBefore cmp tree k) m (fun a m' => m' = m ∧ OneOf t.items 0 a ∧
    (Order cmp → Asc cmp t.items → LastOr (fun i => cmp i.key k ≤ 0) t.items 0 a)) :=
  Does.bind (root_spec h (onOrBeforeLoop_spec cmp k t _ 0 h.sub))

theorem getAfter_spec (cmp : Nat → Nat → Int) (k : Nat) : Does (getAfter cmp tree k) m (fun a m' => m' = m ∧ OneOf t.items 0 a ∧
    (Order cmp → Asc cmp t.items → FirstOr (fun i => 0 < cmp i.key k) t.items 0 a)) :=
  Does.bind (root_spec h (afterLoop_spec cmp k t _ 0 h.sub))

theorem getOnOrAfter_spec (cmp : Nat → Nat → Int) (k : Nat) : Does (getOnOrAfter cmp tree k) m (fun a m' => m' = m ∧ OneOf t.items 0 a ∧
    (Order cmp → Asc cmp t.items → FirstOr (fun i => 0 ≤ cmp i.key k) t.items 0 a)) :=
  Does.bind (root_spec h (onOrAfterLoop_spec cmp k t _ 0 h.sub))

theorem getFirst_spec : Does (getFirst tree) m (fun a m' => m' = m ∧ a = hd t.items) := by
  refine Does.bind ((empty_spec h).mono ?_)
  rintro a _ ⟨rfl, rfl⟩
  by_cases hn : t = nil
  · subst hn
    exact does_pos (by simp [items]) (Does.pure ⟨rfl, rfl⟩)
  · refine does_neg (by simp [items_ne_nil hn]) ?_
    exact Does.bind (root_spec h (leftmost_hd h.sub hn))

theorem getLast_spec : Does (getLast tree) m (fun a m' => m' = m ∧ a = lst t.items) := by
  refine Does.bind ((empty_spec h).mono ?_)
  rintro a _ ⟨rfl, rfl⟩
  by_cases hn : t = nil
  · subst hn
    exact does_pos (by simp [items]) (Does.pure ⟨rfl, rfl⟩)
  · refine does_neg (by simp [items_ne_nil hn]) ?_
    exact Does.bind (root_spec h (rightmost_lst h.sub hn))

end

/-- A user's loop: `avl_tree_next` until NULL. -/
def forwardsFrom (element : Nat) : M (List Nat) := do
  if element ≠ 0 then
    let rest ← forwardsFrom (← next element)
    pure (element :: rest)
  else pure []
partial_fixpoint

/-- A user's loop: `avl_tree_previous` until NULL. -/
def backwardsFrom (element : Nat) : M (List Nat) := do
  if element ≠ 0 then
    let rest ← backwardsFrom (← previous element)
    pure (element :: rest)
  else pure []
partial_fixpoint

def forwards (tree : Nat) : M (List Nat) := do forwardsFrom (← getFirst tree)
def backwards (tree : Nat) : M (List Nat) := do backwardsFrom (← getLast tree)

theorem Z.elem_ne (h : Z m tree n [] t) {i : Item} (hi : i ∈ t.items) : i.elem ≠ 0 :=
  h.sub.ne _ (List.mem_map.2 ⟨i, hi, rfl⟩)

theorem forwardsFrom_spec (h : Z m tree n [] t) : ∀ (ys xs : List Item), t.items = xs ++ ys →
    Does (forwardsFrom (hd ys)) m (fun a m' => m' = m ∧ a = ys.map (·.elem)) := by
  intro ys
  induction ys with
  | nil =>
    intro xs _
    rw [forwardsFrom]
    exact does_neg (by simp [hd]) (Does.pure ⟨rfl, rfl⟩)
  | cons i ys ih =>
    intro xs hi
    rw [forwardsFrom]
    refine does_pos (h.elem_ne (by rw [hi]; simp)) ?_
    refine Does.bind ((next_spec h hi).mono ?_)
    rintro a _ ⟨rfl, rfl⟩
    refine Does.bind ((ih (xs ++ [i]) (by rw [hi]; simp)).mono ?_)
    rintro a _ ⟨rfl, rfl⟩
    exact Does.pure ⟨rfl, rfl⟩

theorem backwardsFrom_spec (h : Z m tree n [] t) : ∀ (k : Nat) (xs ys : List Item), xs.length = k → t.items = xs ++ ys →
    Does (backwardsFrom (lst xs)) m (fun a m' => m' = m ∧ a = (xs.map (·.elem)).reverse) := by
  intro k
  induction k with
  | zero =>
    intro xs ys hk _
    rw [List.length_eq_zero_iff] at hk
    subst hk
    rw [backwardsFrom]
    exact does_neg (by simp [lst]) (Does.pure ⟨rfl, rfl⟩)
  | succ k ih =>
    intro xs ys hk hi
    rcases List.eq_nil_or_concat xs with rfl | ⟨zs, i, rfl⟩
    · simp at hk
    rw [List.concat_eq_append] at hk hi ⊢
    rw [backwardsFrom, lst_snoc]
    refine does_pos (h.elem_ne (by rw [hi]; simp)) ?_
    refine Does.bind ((previous_spec (xs := zs) (ys := ys) h (by rw [hi]; simp)).mono ?_)
    rintro a _ ⟨rfl, rfl⟩
    refine Does.bind ((ih zs (i :: ys) (by simpa using hk) (by rw [hi]; simp)).mono ?_)
    rintro a _ ⟨rfl, rfl⟩
    exact Does.pure ⟨rfl, by simp⟩

theorem forwards_spec (h : Z m tree n [] t) : Does (forwards tree) m (fun a m' => m' = m ∧ a = t.items.map (·.elem)) := by
  refine Does.bind ((getFirst_spec h).mono ?_)
  rintro a _ ⟨rfl, rfl⟩
  exact forwardsFrom_spec h _ [] rfl

theorem backwards_spec (h : Z m tree n [] t) : Does (backwards tree) m (fun a m' => m' = m ∧ a = (t.items.map (·.elem)).reverse) := by
  refine Does.bind ((getLast_spec h).mono ?_)
  rintro a _ ⟨rfl, rfl⟩
  exact backwardsFrom_spec h _ _ [] rfl (by simp)

end Verif.Avl
