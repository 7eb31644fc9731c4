import Verif.Props.ByteArray

/-! Property C138: byte arrays filled by callbacks that may store bytes and report none. -/

set_option autoImplicit false

namespace Verif.BA

/-- The argument values a caller can pass, where a callback is only asked to respect the room it is given. -/
def Op.OkAny : Op → Prop
  | .stream _ cb _ => CbOk cb
  | op => op.Ok

/-- The byte after the contents when the call is over, if it was `z` before. It is a NUL if the call wrote its last byte there, the
callback's first byte if the callback stored some and reported none, and the same as before otherwise. -/
def endByte (max : Nat) (c : List UInt8) (z : UInt8) : Op → UInt8
  | .copy _ pos bs => if c.length < (Verif.Spec.ByteArray.copy max c pos bs).2.length then 0 else z
  | .copyString _ pos s _ => if c.length < (Verif.Spec.ByteArray.copy max c pos s).2.length then 0 else z
  | .append _ bs => if c.length + bs.length < max then 0 else z
  | .appendString _ s _ => if c.length + s.length < max then 0 else z
  | .stream _ cb len =>
    let room := max - 1 - c.length
    if 0 < len ∧ room = 0 then z
    else if 0 < (cb (min len room)).2 then 0
    else match (cb (min len room)).1 with
      | [] => z
      | b :: _ => b
  | .resize _ n _ => if n ≤ c.length ∨ n < max then 0 else z
  | .clear => 0

/-- The byte after the contents at the end of a history. -/
def endByteAll (max : Nat) (c : List UInt8) (z : UInt8) : List Op → UInt8
  | [] => z
  | op :: ops => endByteAll max (op.spec max c).2 (endByte max c z op) ops

theorem append_flag (max : Nat) (c bs : List UInt8) (z : UInt8) :
    (if (Verif.Spec.ByteArray.append max c bs).1 then 0 else z) = if c.length + bs.length < max then 0 else z := by
  unfold Verif.Spec.ByteArray.append
  by_cases h : c.length + bs.length < max <;> simp [h]

theorem resize_flag (max : Nat) (c : List UInt8) (n : Nat) (b z : UInt8) :
    (if (Verif.Spec.ByteArray.resize max c n b).1 then 0 else z) = if n ≤ c.length ∨ n < max then 0 else z := by
  unfold Verif.Spec.ByteArray.resize
  by_cases h : n ≤ c.length
  · simp [h]
  · by_cases h' : n < max <;> simp [h, h']

theorem stream_ends (j : Junk) {z : UInt8} {a : BA} (h : Ends z a) (cb : ReadCb) (hcb : CbOk cb) (len : Nat) :
    ∃ a', appendStream j a cb len = .ok ((Spec.stream a.maxSize (contents a) cb len).1, a') ∧
      Ends (endByte a.maxSize (contents a) z (.stream j cb len)) a' ∧
      contents a' = (Spec.stream a.maxSize (contents a) cb len).2 ∧ a'.maxSize = a.maxSize := by
  have g3 := h.max64; have g5 := h.curMax
  have hd : ∀ l : List UInt8, (match l with | [] => z | b :: _ => b) = l.headD z := by intro l; cases l <;> rfl
  have fin : ∀ n, a.cursor + n < a.maxSize → n = min len (a.maxSize - 1 - a.cursor) → ∃ a',
      streamTail j a cb n = .ok ((cb (min len (a.maxSize - 1 - a.cursor))).2, a') ∧
      Ends (if 0 < (cb (min len (a.maxSize - 1 - a.cursor))).2 then 0 else (cb (min len (a.maxSize - 1 - a.cursor))).1.headD z) a' ∧
      contents a' = contents a ++ (cb (min len (a.maxSize - 1 - a.cursor))).1.take (cb (min len (a.maxSize - 1 - a.cursor))).2.toNat ∧
      a'.maxSize = a.maxSize := by
    intro n hn he
    obtain ⟨a', e1, e2, e3, e4⟩ := streamTail_spec j h cb hcb n hn
    rw [← he]
    exact ⟨a', e1, e4, e2, e3⟩
  unfold appendStream Spec.stream endByte
  simp only [hd]
  rw [sub64_eq (by omega) g3, contents_length h]
  by_cases hl : len ≥ a.maxSize - a.cursor
  · rw [if_pos hl]
    by_cases h1 : a.maxSize - a.cursor = 1
    · rw [if_pos h1, if_pos (by omega), if_pos (by omega)]
      exact ⟨a, rfl, h, rfl, rfl⟩
    · rw [if_neg h1, if_neg (by omega), if_neg (by omega), sub64_eq (by omega) (by omega)]
      exact fin _ (by omega) (by omega)
  · rw [if_neg hl, if_neg (by omega), if_neg (by omega)]
    exact fin _ (by omega) (by omega)

theorem op_ends {z : UInt8} {a : BA} (h : Ends z a) (op : Op) (hop : op.OkAny) :
    ∃ a', op.run a = .ok ((op.spec a.maxSize (contents a)).1, a') ∧ Ends (endByte a.maxSize (contents a) z op) a' ∧
      contents a' = (op.spec a.maxSize (contents a)).2 ∧ a'.maxSize = a.maxSize := by
  cases op with
  | copy j pos bs =>
    obtain ⟨a', e, h1⟩ := copy_ends j h pos bs hop
    exact ⟨a', by simp only [Op.run, e]; rfl, h1⟩
  | copyString j pos s t =>
    obtain ⟨a', e, h1⟩ := copy_ends j h pos s hop.1
    exact ⟨a', by simp only [Op.run, copyString, strlen_spec s t hop.2, List.take_left, e]; rfl, h1⟩
  | append j bs =>
    obtain ⟨a', e, h1, h2⟩ := append_ends j h bs
    rw [append_flag] at h1
    exact ⟨a', by simp only [Op.run, e]; rfl, h1, h2⟩
  | appendString j s t =>
    obtain ⟨a', e, h1, h2⟩ := append_ends j h s
    rw [append_flag] at h1
    exact ⟨a', by simp only [Op.run, appendString, strlen_spec s t hop, List.take_left, e]; rfl, h1, h2⟩
  | stream j cb len =>
    obtain ⟨a', e, h1⟩ := stream_ends j h cb hop len
    exact ⟨a', by simp only [Op.run, e]; rfl, h1⟩
  | resize j n c =>
    obtain ⟨a', e, h1, h2⟩ := resize_ends j h n c hop
    rw [resize_flag] at h1
    exact ⟨a', by simp only [Op.run, e]; rfl, h1, h2⟩
  | clear =>
    obtain ⟨a', e, h1⟩ := clear_spec h
    exact ⟨a', by simp only [Op.run, e]; rfl, h1⟩

theorem run_ends (ops : List Op) : ∀ {z : UInt8} {a : BA}, Ends z a → (∀ op ∈ ops, op.OkAny) →
    ∃ a', runAll a ops = .ok ((specAll a.maxSize (contents a) ops).1, a') ∧ Ends (endByteAll a.maxSize (contents a) z ops) a' ∧
      contents a' = (specAll a.maxSize (contents a) ops).2 ∧ a'.maxSize = a.maxSize := by
  induction ops with
  | nil => intro z a h _; exact ⟨a, rfl, h, rfl, rfl⟩
  | cons op ops ih =>
    intro z a h hok
    obtain ⟨a1, e1, i1, c1, m1⟩ := op_ends h op (hok op (List.mem_cons_self ..))
    obtain ⟨a2, e2, i2, c2, m2⟩ := ih i1 (fun o ho => hok o (List.mem_cons_of_mem _ ho))
    refine ⟨a2, ?_, ?_, ?_, by rw [m2, m1]⟩
    · simp only [runAll, e1, e2, specAll]; rw [c1, m1]
    · rw [c1, m1] at i2; exact i2
    · rw [c2]; simp only [specAll]; rw [c1, m1]

/-- C138. Whatever the callbacks store in the room they are given and report, no call touches memory outside the block, and results,
bytes and size are as specified. The byte after the contents is `endByteAll`. -/
theorem byte_array_any_callback (junk : Junk) (max : Nat) (h0 : 0 < max) (h64 : max < 2 ^ 64) (ops : List Op) (hops : ∀ op ∈ ops, op.OkAny) :
    ∃ a a' rest, make junk max = .ok a ∧ runAll a ops = .ok ((specAll max [] ops).1, a') ∧
      view a' = ((specAll max [] ops).2 ++ endByteAll max [] 0 ops :: rest, (specAll max [] ops).2.length) ∧ (specAll max [] ops).2.length + 1 ≤ max := by
  obtain ⟨a, e, hi, hc, hm⟩ := make_spec junk max h0 h64
  obtain ⟨a', e2, i2, c2, m2⟩ := run_ends ops hi hops
  rw [hc, hm] at e2 c2 i2
  have hl := contents_length i2
  have g1 := i2.len; have g4 := i2.curSize; have g5 := i2.curMax
  have hn := i2.nul
  rw [List.getElem?_eq_getElem (by omega)] at hn
  refine ⟨a, a', a'.data.drop (a'.cursor + 1), e, e2, ?_, ?_⟩
  · rw [← c2, hl]
    have : a'.data.drop a'.cursor = endByteAll max [] 0 ops :: a'.data.drop (a'.cursor + 1) := by
      rw [List.drop_eq_getElem_cons (by omega), Option.some.inj hn]
    rw [← this]
    simp only [view, contents, List.take_append_drop]
  · rw [← c2, hl]; omega

/-- C138. So the terminator can be missing only from a call whose callback stored a byte other than NUL and reported none, up to the
next call that appends, resizes or clears with success, or copies past the end. -/
theorem end_byte_lost {max : Nat} {c : List UInt8} {z : UInt8} {op : Op} (h : endByte max c z op ≠ 0) :
    endByte max c z op = z ∨ ∃ j cb len n b bs k, op = .stream j cb len ∧ n ≤ len ∧ cb n = (b :: bs, k) ∧ k ≤ 0 ∧ endByte max c z op = b := by
  cases op with
  | copy j pos bs => simp only [endByte] at h ⊢; split_ifs at h ⊢ <;> simp_all
  | copyString j pos s t => simp only [endByte] at h ⊢; split_ifs at h ⊢ <;> simp_all
  | append j bs => simp only [endByte] at h ⊢; split_ifs at h ⊢ <;> simp_all
  | appendString j s t => simp only [endByte] at h ⊢; split_ifs at h ⊢ <;> simp_all
  | stream j cb len =>
    simp only [endByte] at h ⊢
    split_ifs at h ⊢ with h1 h2
    · exact .inl rfl
    · exact absurd rfl h
    · cases hb : (cb (min len (max - 1 - c.length))).1 with
      | nil => exact .inl rfl
      | cons b bs => exact .inr ⟨j, cb, len, _, b, bs, _, rfl, Nat.min_le_left .., Prod.ext hb rfl, Int.not_lt.1 h2, rfl⟩
  | resize j n c => simp only [endByte] at h ⊢; split_ifs at h ⊢ <;> simp_all
  | clear => exact absurd rfl h

/-- C138. If the last call appended, resized or cleared with success, or its callback reported some bytes, the contents are NUL terminated,
whatever happened before. -/
theorem byte_array_terminated_again (junk : Junk) (max : Nat) (h0 : 0 < max) (h64 : max < 2 ^ 64) (ops : List Op) (op : Op) (hops : ∀ o ∈ ops ++ [op], o.OkAny)
    (hop : (∃ j bs, op = .append j bs ∨ (∃ t, op = .appendString j bs t) ∨ ∃ n c, op = .resize j n c) ∧ (op.spec max (specAll max [] ops).2).1 = .bool true ∨
      op = .clear ∨ ∃ j cb len k, op = .stream j cb len ∧ (op.spec max (specAll max [] ops).2).1 = .int k ∧ 0 < k) :
    ∃ a a', make junk max = .ok a ∧ runAll a (ops ++ [op]) = .ok ((specAll max [] (ops ++ [op])).1, a') ∧ Shows a' max (specAll max [] (ops ++ [op])).2 := by
  obtain ⟨a, a', rest, h1, h2, h3, h4⟩ := byte_array_any_callback junk max h0 h64 (ops ++ [op]) hops
  refine ⟨a, a', h1, h2, ⟨rest, ?_⟩, by rw [h3], h4⟩
  have key : ∀ (ops : List Op) (c : List UInt8) (z : UInt8), ∃ z', endByteAll max c z (ops ++ [op]) = endByte max (specAll max c ops).2 z' op := by
    intro ops
    induction ops with
    | nil => intro c z; exact ⟨z, rfl⟩
    | cons o ops ih => intro c z; exact ih (o.spec max c).2 (endByte max c z o)
  have hz : endByteAll max [] 0 (ops ++ [op]) = 0 := by
    obtain ⟨z', e⟩ := key ops [] 0
    rw [e]
    rcases hop with ⟨⟨j, bs, rfl | ⟨t, rfl⟩ | ⟨n, c, rfl⟩⟩, hr⟩ | rfl | ⟨j, cb, len, k, rfl, hr, hk⟩
    · simp only [Op.spec, Res.bool.injEq] at hr
      have := append_flag max (specAll max [] ops).2 bs z'
      rw [hr] at this
      exact this.symm
    · simp only [Op.spec, Res.bool.injEq] at hr
      have := append_flag max (specAll max [] ops).2 bs z'
      rw [hr] at this
      exact this.symm
    · simp only [Op.spec, Res.bool.injEq] at hr
      have := resize_flag max (specAll max [] ops).2 n c z'
      rw [hr] at this
      exact this.symm
    · rfl
    · simp only [Op.spec, Res.int.injEq, Spec.stream] at hr
      simp only [endByte]
      split_ifs at hr ⊢ with h5 h6
      · simp only at hr; omega
      · rfl
      · simp only at hr; omega
  rw [h3, hz]

/-- A callback that stores two bytes and fails leaves "ab" followed by an "x"; the next append puts this right. -/
example : let cb : ReadCb := fun n => if 2 ≤ n then ([120, 121], -1) else ([], 0)
    let ops := [Op.append (fun _ => 7) [97, 98], .stream (fun _ => 7) cb 4]
    (∀ op ∈ ops ++ [.append (fun _ => 7) [99]], op.OkAny) ∧ specAll 8 [] ops = ([.bool true, .int (-1)], [97, 98]) ∧ endByteAll 8 [] 0 ops = 120 ∧
      endByteAll 8 [] 0 (ops ++ [.append (fun _ => 7) [99]]) = 0 := by
  refine ⟨?_, by decide, by decide, by decide⟩
  simp only [List.cons_append, List.nil_append, List.mem_cons, List.not_mem_nil, or_false, forall_eq_or_imp, forall_eq, Op.OkAny, Op.Ok, and_true, true_and]
  intro n
  by_cases h : 2 ≤ n <;> simp [h]

end Verif.BA
