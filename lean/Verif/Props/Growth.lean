import Verif.Proofs.Growth

/-! Property C115: how the blocks of byte arrays and priority queues grow. -/

set_option autoImplicit false

namespace Verif.BA
open Verif.Spec.Growth

/-- A byte array before and after each call of a history. -/
def trail (a : BA) : List Op → C (List BA)
  | [] => .ok [a]
  | op :: ops => match op.run a with
    | .error e => .error e
    | .ok (_, a') => match trail a' ops with
      | .error e => .error e
      | .ok t => .ok (a :: t)

/-- How many bytes a call on an array of `n` bytes asks room for; 0 if it is refused. -/
def Op.reach (max n : Nat) : Op → Nat
  | .copy _ pos bs => if pos ≤ n ∧ pos + bs.length < max then pos + bs.length else 0
  | .copyString _ pos s _ => if pos ≤ n ∧ pos + s.length < max then pos + s.length else 0
  | .append _ bs => if n + bs.length < max then n + bs.length else 0
  | .appendString _ s _ => if n + s.length < max then n + s.length else 0
  | .stream _ _ len => n + min len (max - 1 - n)
  | .resize _ m _ => if m < max then m else 0
  | .clear => 0

/-- No call of the history asks room for more than `peak` bytes. -/
def Within (max peak : Nat) (c : List UInt8) : List Op → Prop
  | [] => True
  | op :: ops => op.reach max c.length ≤ peak ∧ Within max peak (op.spec max c).2 ops

theorem op_grown {a a' : BA} {r : Res} (h : Inv a) (hp : Pow a) (hm : a.maxSize ≤ 2 ^ 63) (op : Op) (hop : op.Ok)
    (e : op.run a = .ok (r, a')) : Grown a a' (op.reach a.maxSize a.cursor) := by
  have split_map : ∀ {β γ : Type} {x : C β} {f : β → γ} {c : γ}, x.map f = .ok c → ∃ b, x = .ok b ∧ f b = c := by
    intro β γ x f c hx
    cases x with
    | error => cases hx
    | ok b => exact ⟨b, rfl, by injection hx⟩
  cases op with
  | copy j pos bs =>
    obtain ⟨⟨b, a1⟩, h1, h2⟩ := split_map e
    injection h2 with _ h2; simp only at h2; subst h2
    exact copy_size j h hp hm hop h1
  | copyString j pos s t =>
    obtain ⟨⟨b, a1⟩, h1, h2⟩ := split_map e
    injection h2 with _ h2; simp only at h2; subst h2
    simp only [copyString, strlen_spec s t hop.2, List.take_left] at h1
    exact copy_size j h hp hm hop.1 h1
  | append j bs =>
    obtain ⟨⟨b, a1⟩, h1, h2⟩ := split_map e
    injection h2 with _ h2; simp only at h2; subst h2
    exact append_size j h hp hm h1
  | appendString j s t =>
    obtain ⟨⟨b, a1⟩, h1, h2⟩ := split_map e
    injection h2 with _ h2; simp only at h2; subst h2
    simp only [appendString, strlen_spec s t hop, List.take_left] at h1
    exact append_size j h hp hm h1
  | stream j cb len =>
    obtain ⟨⟨b, a1⟩, h1, h2⟩ := split_map e
    injection h2 with _ h2; simp only at h2; subst h2
    have h5 := h.curMax
    unfold appendStream at h1
    simp only at h1
    rw [sub64_eq (by omega) h.max64] at h1
    simp only [Op.reach]
    split at h1
    · split at h1
      · injection h1 with h1; injection h1 with _ h1; subst h1; exact .inl rfl
      · rw [sub64_eq (by omega) (by omega)] at h1
        have := streamTail_size j h hp hm h1
        rwa [show min len (a.maxSize - 1 - a.cursor) = a.maxSize - a.cursor - 1 by omega]
    · have := streamTail_size j h hp hm h1
      rwa [show min len (a.maxSize - 1 - a.cursor) = len by omega]
  | resize j n c =>
    obtain ⟨⟨b, a1⟩, h1, h2⟩ := split_map e
    injection h2 with _ h2; simp only at h2; subst h2
    exact resize_size j h hp hm hop h1
  | clear =>
    obtain ⟨a1, h1, h2⟩ := split_map e
    injection h2 with _ h2; subst h2
    exact .inl (terminate_size h1 :)

theorem reach_lt {max n : Nat} (op : Op) (h : n < max) : op.reach max n ≤ max - 1 := by
  cases op <;> simp only [Op.reach] <;> (try split) <;> omega

theorem trail_grown (peak : Nat) (ops : List Op) : ∀ (a : BA), Inv a → Pow a → a.maxSize ≤ 2 ^ 63 → (∀ op ∈ ops, op.Ok) →
    Within a.maxSize peak (contents a) ops → ∃ t, trail a ops = .ok (a :: t) ∧
      ((a :: t).map (·.data.length)).IsChain (fun x y => y = x ∨ 2 * x ≤ y) ∧ ∀ b ∈ a :: t, b.data.length ≤ max a.size (2 * min peak (a.maxSize - 1)) := by
  induction ops with
  | nil => intro a h _ _ _ _; exact ⟨[], rfl, by simp, by simp [h.len]⟩
  | cons op ops ih =>
    intro a h hp hm hops hw
    obtain ⟨a', e, h', hc, hmax⟩ := op_spec h op (hops op (by simp))
    have hg := op_grown h hp hm op (hops op (by simp)) e
    have hr := hw.1
    rw [contents_length h] at hr
    have hr2 := reach_lt op h.curMax
    have hp' : Pow a' := by
      rcases hg with hg | ⟨-, -, hg⟩
      · simpa only [Pow, hg, hmax] using hp
      · exact .inr hg
    obtain ⟨t, e2, h3, h4⟩ := ih a' h' hp' (by omega) (fun o ho => hops o (by simp [ho])) (by rw [hmax, hc]; exact hw.2)
    refine ⟨a' :: t, by simp only [trail, e, e2], ?_, ?_⟩
    · rw [List.map_cons, List.map_cons, List.isChain_cons_cons]
      refine ⟨?_, h3⟩
      rw [h.len, h'.len]
      rcases hg with hg | ⟨hg, -⟩
      · exact .inl hg
      · exact .inr hg
    · intro b hb
      rcases List.mem_cons.mp hb with rfl | hb
      · rw [h.len]; omega
      · have := h4 b hb
        rcases hg with hg | ⟨-, hg, -⟩ <;> omega

/-- C115: along any history of calls on a byte array none of which asks room for more than `peak` bytes, the block never has more than
128 bytes or twice `peak`, the number `r` of reallocations satisfies `128 · 2^r ≤ max 128 (2 · peak)`, and all of them together copy fewer
bytes than the larger of 128 and twice `peak`. Limits above 2^63, more than any object can have, are left out. -/
theorem byte_array_growth (junk : Junk) (limit : Nat) (h0 : 0 < limit) (h63 : limit ≤ 2 ^ 63) (ops : List Op) (hops : ∀ op ∈ ops, op.Ok)
    (peak : Nat) (hw : Within limit peak [] ops) :
    ∃ a t, make junk limit = .ok a ∧ trail a ops = .ok t ∧
      (∀ b ∈ t, b.data.length ≤ max 128 (2 * peak)) ∧
      128 * 2 ^ changes (t.map (·.data.length)) ≤ max 128 (2 * peak) ∧
      moved (t.map (·.data.length)) < max 128 (2 * peak) := by
  obtain ⟨a, e, h, hc, hm⟩ := make_spec junk limit h0 (by omega)
  have hs : a.size = if 128 > limit then limit else 128 := by
    unfold make at e
    simp only at e
    split at e
    · cases e
    · injection e with e; subst e; rfl
  have hp : Pow a := by
    unfold Pow
    rw [hs, hm]
    split
    · exact .inl rfl
    · exact .inr ⟨7, rfl⟩
  obtain ⟨t, e2, h3, h4⟩ := trail_grown peak ops a h hp (by omega) hops (by rw [hm, hc]; exact hw)
  have hlen : ((a :: t).map (·.data.length)) = a.size :: t.map (·.data.length) := by rw [List.map_cons, h.len]
  rw [hlen] at h3
  rw [hm] at h4
  have h5 := Growth.chain_moved _ _ h3
  have h6 := Growth.chain_changes _ _ h3
  have h7 := Growth.last_le (a.size :: t.map (·.data.length)) (max a.size (2 * min peak (limit - 1))) (by simp) (by
    intro x hx
    rw [← hlen, List.mem_map] at hx
    obtain ⟨b, hb, rfl⟩ := hx
    exact h4 b hb)
  have hpos := h.curSize
  refine ⟨a, a :: t, e, e2, fun b hb => ?_, ?_⟩
  · have := h4 b hb
    split at hs <;> omega
  · rw [hlen]
    generalize (a.size :: t.map (·.data.length)).getLast _ = last at h5 h6 h7
    generalize changes (a.size :: t.map (·.data.length)) = r at h6 ⊢
    refine ⟨?_, by split at hs <;> omega⟩
    split at hs
    · have hz : r = 0 := by
        by_contra hne
        have : 2 ^ 1 ≤ 2 ^ r := Nat.pow_le_pow_right (by omega) (by omega)
        have := Nat.mul_le_mul_right a.size this
        omega
      rw [hz]; omega
    · rw [hs, Nat.mul_comm] at h6
      omega

theorem append_fits {max : Nat} {c bs : List UInt8} (h : c.length + bs.length < max) : Verif.Spec.ByteArray.append max c bs = (true, c ++ bs) := by
  unfold Verif.Spec.ByteArray.append; rw [if_pos h]

/-- Three appends of 100 bytes and a `clear`: blocks of 128, 256 and 512 bytes. -/
example (bs : List UInt8) (hbs : bs.length = 100) : ∃ a t, make (fun _ => 7) 1000 = .ok a ∧
    trail a [.append (fun _ => 7) bs, .append (fun _ => 7) bs, .append (fun _ => 7) bs, .clear] = .ok t ∧
    (∀ b ∈ t, b.data.length ≤ 600) ∧ 128 * 2 ^ changes (t.map (·.data.length)) ≤ 600 ∧ moved (t.map (·.data.length)) < 600 :=
  byte_array_growth (fun _ => 7) 1000 (by omega) (by omega) _ (by simp [Op.Ok]) 300
    (by simp [Within, Op.reach, Op.spec, append_fits, hbs])

end Verif.BA

namespace Verif.Prioq
open Verif.Spec.Prioq Verif.Spec.Growth

variable {α : Type}

/-- A queue before and after each operation of a history. -/
def trail [DecidableEq α] (cmp : α → α → Int) : PQ α → List (Op α) → D (List (PQ α))
  | q, [] => pure [q]
  | q, op :: ops => do
    let r ← apply cmp q op
    let t ← trail cmp r.2 ops
    pure (q :: t)

/-- The largest number of elements in the queue along a history that starts with `n` of them. -/
def peak (n : Nat) : List (Op α) → Nat
  | [] => n
  | op :: ops => max n (peak (countAfter n [op]) ops)

theorem countAfter_cons (n : Nat) (op : Op α) (ops : List (Op α)) : countAfter n (op :: ops) = countAfter (countAfter n [op]) ops := by
  cases op <;> rfl

theorem counted_cons {n : Nat} {op : Op α} {ops : List (Op α)} (h : Counted n (op :: ops)) : Counted n [op] ∧ Counted (countAfter n [op]) ops := by
  cases op <;> simp_all [Counted, countAfter]

theorem peak_ge (n : Nat) (ops : List (Op α)) : n ≤ peak n ops := by
  cases ops <;> simp only [peak] <;> omega

theorem trail_grown [DecidableEq α] (cmp : α → α → Int) (ops : List (Op α)) : ∀ (q : PQ α) (ys : List α), Full q ys → ys.length ≤ 2 ^ 60 →
    Pow q → Counted ys.length ops → ∃ t, Returns (trail cmp q ops) (q :: t) ∧
      ((q :: t).map (·.storage.length)).IsChain (fun x y => y = x ∨ 2 * x ≤ y ∧ 0 < y) ∧
      ∀ b ∈ q :: t, b.storage.length ≤ max q.maxCapacity (2 * peak ys.length ops - 1) := by
  induction ops with
  | nil => intro q ys h _ _ _; exact ⟨[], by simp [trail], by simp, by simp [h.len]⟩
  | cons op ops ih =>
    intro q ys h hl hp hcnt
    obtain ⟨hc1, hc2⟩ := counted_cons hcnt
    obtain ⟨rs, q', ys', hr, h', hl', hsz⟩ := run_full_from cmp [op] q ys h hl hc1
    have hcount := h.count
    obtain ⟨r, hr1⟩ : ∃ r, Returns (apply cmp q op) (r, q') := by
      have : Post (run cmp q [op]) fun x => ∃ r, Returns (apply cmp q op) (r, x.2) := by
        refine Post.bind fun r h1 => Post.bind fun s h2 => Post.pure ?_
        rw [run, returns_pure] at h2
        subst h2
        exact ⟨r.1, h1⟩
      exact this _ hr
    have hlen : countAfter ys.length [op] = ys'.length := by rw [← hsz]; exact h'.count
    have hg := apply_grown hp (by omega) op (by rintro v rfl; rw [hcount]; exact hc1.1) _ hr1
    simp only at hg
    have hp' : Pow q' := by
      rcases hg with hg | ⟨-, hg | ⟨-, -, -, hg⟩⟩
      · simpa only [Pow, hg] using hp
      · simpa only [Pow, hg] using hp
      · exact .inr hg
    rw [hlen] at hc2
    obtain ⟨t, e2, h3, h4⟩ := ih q' ys' h' hl' hp' hc2
    refine ⟨q' :: t, ?_, ?_, ?_⟩
    · simp only [trail]
      rw [returns_bind hr1, returns_bind e2]; simp
    · rw [List.map_cons, List.map_cons, List.isChain_cons_cons]
      refine ⟨?_, h3⟩
      rw [h.len, h'.len]
      rcases hg with hg | ⟨-, hg | ⟨hg, hg2, -⟩⟩
      · exact .inl hg
      · exact .inl hg
      · exact .inr ⟨hg, hg2⟩
    · intro b hb
      simp only [peak, hlen]
      rcases List.mem_cons.mp hb with rfl | hb
      · rw [h.len]; omega
      · have := h4 b hb
        have hge := peak_ge ys'.length ops
        rcases hg with hg | ⟨⟨v, rfl⟩, hg | ⟨-, -, hg, -⟩⟩
        · omega
        · omega
        · simp only [countAfter] at hlen
          omega

/-- C115: along any admissible history of operations on a priority queue that never holds more than `n` elements, the storage never has
more than `2n - 1` slots, the number `r` of reallocations satisfies `2^r ≤ 4n`, and all of them together copy fewer than `2n` slots,
whatever the comparator does. -/
theorem priorq_growth [DecidableEq α] (cmp : α → α → Int) (ops : List (Op α)) (h : Counted 0 ops) :
    ∃ t, Returns (trail cmp make ops) t ∧
      (∀ q ∈ t, q.storage.length ≤ 2 * peak 0 ops - 1) ∧
      2 ^ changes (t.map (·.storage.length)) ≤ max 1 (4 * peak 0 ops) ∧
      moved (t.map (·.storage.length)) ≤ 2 * peak 0 ops - 1 := by
  obtain ⟨t, e, h3, h4⟩ := trail_grown cmp ops make [] make_full (by simp) (.inl rfl) h
  have hlen : ((make :: t).map (fun q : PQ α => q.storage.length)) = 0 :: t.map (·.storage.length) := rfl
  rw [hlen] at h3
  have h4' : ∀ q ∈ make :: t, q.storage.length ≤ 2 * peak 0 ops - 1 := fun q hq => by
    have := h4 q hq
    simpa [make] using this
  have h5 := Growth.chain_moved _ _ (h3.imp fun _ _ h => h.imp_right And.left)
  have h6 := Growth.chain_changes0 _ _ h3
  have h7 := Growth.last_le (0 :: t.map (·.storage.length)) (2 * peak 0 ops - 1) (by simp) (by
    intro x hx
    rw [← hlen, List.mem_map] at hx
    obtain ⟨b, hb, rfl⟩ := hx
    exact h4' b hb)
  refine ⟨make :: t, e, h4', ?_, ?_⟩
  · rw [hlen]; omega
  · rw [hlen]; omega

/-- Three elements at most: at most five slots, three reallocations and five slots copied. -/
example : ∃ t, Returns (trail natCmp make [.enqueue 3, .enqueue 1, .dequeue, .enqueue 2, .enqueue 5, .pop, .enqueue 4]) t ∧
    (∀ q ∈ t, q.storage.length ≤ 5) ∧ 2 ^ changes (t.map (·.storage.length)) ≤ 12 ∧ moved (t.map (·.storage.length)) ≤ 5 :=
  priorq_growth natCmp _ (by simp [Counted])

end Verif.Prioq
