import Verif.Proofs.ShippedIdna
import Mathlib.Data.List.Nodup

/-!
What the functions of ShippedScan.lean find in DerivedNormalizationProps.txt and CompositionExclusions.txt, and the conclusions for whole files.
-/

set_option autoImplicit false

namespace Verif.Shipped
open Verif.Unidata Verif.UniGen Verif.PyGen
open Verif.Spec.DataFiles

/-- The lines of a text that ends with a line feed are unique. -/
theorem split_unique : ∀ {ls ls' : List (List Nat)}, (∀ l ∈ ls, 10 ∉ l) → (∀ l ∈ ls', 10 ∉ l) → ls.flatMap (fun l => l ++ [10]) = ls'.flatMap (fun l => l ++ [10]) → ls = ls' := by
  have cut : ∀ {a b x y : List Nat}, 10 ∉ a → 10 ∉ b → a ++ 10 :: x = b ++ 10 :: y → a = b ∧ x = y := by
    intro a
    induction a with
    | nil =>
      intro b x y _ hb h
      cases b with
      | nil => simpa using h
      | cons c b => simp at h; simp [← h.1] at hb
    | cons c a ih =>
      intro b x y ha hb h
      cases b with
      | nil => simp at h; simp [h.1] at ha
      | cons d b =>
        simp only [List.cons_append, List.cons.injEq] at h
        obtain ⟨h1, h2⟩ := ih (fun h => ha (by simp [h])) (fun h => hb (by simp [h])) h.2
        exact ⟨by rw [h.1, h1], h2⟩
  intro ls
  induction ls with
  | nil =>
    intro ls' _ _ h
    cases ls' with
    | nil => rfl
    | cons a ls' => simp at h
  | cons a ls ih =>
    intro ls' h1 h2 h
    cases ls' with
    | nil => simp at h
    | cons b ls' =>
      simp only [List.flatMap_cons, List.append_assoc, List.singleton_append] at h
      obtain ⟨rfl, h'⟩ := cut (h1 a (by simp)) (h2 b (by simp)) h
      rw [ih (fun l hl => h1 l (by simp [hl])) (fun l hl => h2 l (by simp [hl])) h']

theorem toList_sorted {α : Type} {t : RTree α} : ∀ {a b : Nat}, t.ok a b = true → (t.toList.map (·.1)).Pairwise (· < ·) := by
  induction t with
  | leaf => intro a b _; exact .nil
  | node l lo hi v r ihl ihr =>
    intro a b h
    have h' := h
    simp only [RTree.ok, Bool.and_eq_true, Nat.ble_eq, Nat.blt_eq] at h
    obtain ⟨⟨⟨⟨h1, h2⟩, h3⟩, h4⟩, h5⟩ := h
    simp only [RTree.toList, List.map_append, List.map_cons]
    have hl : ∀ x ∈ l.toList.map (·.1), x < lo := by
      intro x hx
      obtain ⟨⟨p, q, w⟩, hm, rfl⟩ := List.mem_map.1 hx
      have := ok_mem (by assumption) p q w hm
      simp only
      omega
    have hr : ∀ x ∈ r.toList.map (·.1), lo < x := by
      intro x hx
      obtain ⟨⟨p, q, w⟩, hm, rfl⟩ := List.mem_map.1 hx
      have := ok_mem h5 p q w hm
      simp only
      omega
    refine List.pairwise_append.2 ⟨ihl (by assumption), .cons hr (ihr h5), ?_⟩
    intro x hx y hy
    rcases List.mem_cons.1 hy with rfl | hy
    · exact hl x hx
    · have := hl x hx
      have := hr y hy
      omega

/-- The number of entries. -/
def size {α : Type} : RTree α → Nat
  | .leaf => 0
  | .node l _ _ _ r => size l + size r + 1

theorem size_toList {α : Type} (t : RTree α) : t.toList.length = size t := by
  induction t with
  | leaf => rfl
  | node l lo hi v r ihl ihr => simp [RTree.toList, size, ihl, ihr]; omega

/-! ### IdnaMappingTable.txt -/

theorem idna_text13 {text : List Nat} {lo hi : Nat} (h : PartG IdnaQuiet IdnaSays Spec.IdnaTable.Line.lo text (size idnaTable) lo hi) :
    ∃ ls : List (List Nat), text = ls.flatMap (fun l => l ++ [10]) ∧ (∀ l ∈ ls, 10 ∉ l) ∧ IdnaGen.Text13 (ls.map fun l => toB (l ++ [10])) := by
  obtain ⟨_, ls, es, h1, h2, h3, h4, h5, h6⟩ := h
  refine ⟨ls, h1, h2, es, ?_, ?_⟩
  · clear h1 h2 h4 h5 h6
    induction h3 with
    | nil => exact .nil
    | quiet l ls es h _ ih => exact .silent _ _ _ h ih
    | line l ls e es h _ ih => exact .line _ _ _ _ h.1 ih
  · have hgood : ∀ e ∈ es, ∃ r ∈ idnaTable.toList, IdnaGen.Match e r := by
      clear h1 h2 h4 h5 h6
      induction h3 with
      | nil => simp
      | quiet l ls es h _ ih => exact ih
      | line l ls e es h _ ih =>
        intro x hx
        rcases List.mem_cons.1 hx with rfl | hx
        · exact h.2
        · exact ih x hx
    have hs := toList_sorted (covers_ok IdnaGen.idnaTable_covers)
    have hk : es.map Spec.IdnaTable.Line.lo = idnaTable.toList.map (·.1) := by
      refine keys_eq (List.pairwise_map.2 h5) hs ?_ (by simp [h4, size_toList])
      intro x hx
      obtain ⟨e, he, rfl⟩ := List.mem_map.1 hx
      obtain ⟨r, hr, hm⟩ := hgood e he
      exact List.mem_map.2 ⟨r, hr, hm.1.symm⟩
    refine forall₂_of_map hk fun e he r hr heq => ?_
    obtain ⟨r', hr', hm⟩ := hgood e he
    have : r' = r := List.inj_on_of_nodup_map (hs.imp fun h => Nat.ne_of_lt h) hr' hr (hm.1.symm.trans heq)
    exact this ▸ hm

/-! ### DerivedNormalizationProps.txt -/

/-- Where the lines about a property are in the file. -/
def section' : Prop4 → Nat
  | .nfd => 0
  | .nfc => 0x400000
  | .nfkd => 0x800000
  | .nfkc => 0xC00000

noncomputable def quickKey (q : Quick) : Nat := section' q.prop + qcKey (qcOf13 q.value) + q.lo

def PropsQuiet (l : List Nat) : Prop := (∃ g, l = 35 :: g) ∨ (∀ c ∈ l, c < 128) ∧ Elsewhere (chars l)

def PropsSays (l : List Nat) (q : Quick) : Prop := (∀ c ∈ l, c < 128) ∧ Checks (chars l) q ∧ (q.lo, q.hi, qcOf13 q.value) ∈ (table13 q.prop).toList

theorem HexN.number {s : List Nat} {v : Nat} (h : HexN s v) : Number 16 (chars s) v := by
  have := hexOk_number h.1
  rw [List.reverse_reverse, ← h.2] at this
  exact this

theorem RangeN.chars {s : List Nat} {lo hi : Nat} (h : RangeN s lo hi) :
    Number 16 (chars s) lo ∧ hi = lo ∨ ∃ a b, Shipped.chars s = a ++ ['.', '.'] ++ b ∧ Number 16 a lo ∧ Number 16 b hi := by
  obtain ⟨h1, h2⟩ | ⟨a, b, rfl, h1, h2⟩ := h
  · exact .inl ⟨h1.number, h2⟩
  · exact .inr ⟨Shipped.chars a, Shipped.chars b, by simp [Shipped.chars], h1.number, h2.number⟩

theorem not_mem_chars {l : List Nat} {d : Nat} (hd : d < 128) (h : ∀ c ∈ l, c < 128 ∧ c ≠ d) : Char.ofNat d ∉ chars l := by
  have inj : ∀ a < 128, ∀ b < 128, Char.ofNat a = Char.ofNat b → a = b := by decide +kernel
  intro hm
  obtain ⟨c, hc, e⟩ := List.mem_map.1 hm
  exact (h c hc).2 (inj c (h c hc).1 d hd e)

theorem blank_chars {l : List Nat} (h : ∀ c ∈ l, bit mSpace c = true) : ∀ c ∈ chars l, Blank c := by
  intro c hc
  obtain ⟨d, hd, rfl⟩ := List.mem_map.1 hc
  rw [bit_space (h d hd)]
  exact .inl rfl

/-- Fields and a comment. -/
theorem body_fields {fs : List (List Nat)} {com : List Nat} (hne : fs ≠ []) (hf : ∀ f ∈ fs, ∀ c ∈ f, bit mFree c = true) (hc : ∀ c ∈ com, bit mAscii c = true)
    (hc35 : ∃ g, com = 35 :: g) : (∀ c ∈ List.intercalate [59] fs ++ com, 32 ≤ c ∧ c < 127) ∧
      Body (chars (List.intercalate [59] fs ++ com)) (chars (List.intercalate [59] fs)) ∧ Fields (chars (List.intercalate [59] fs)) (fs.map chars) := by
  have hbody : ∀ c ∈ List.intercalate [59] fs, 32 ≤ c ∧ c < 127 ∧ c ≠ 35 := by
    intro c hc'
    simp only [List.intercalate, List.mem_flatten] at hc'
    obtain ⟨f, hf', hc'⟩ := hc'
    have : ∀ f ∈ List.intersperse [59] fs, f = [59] ∨ f ∈ fs := by
      clear hf hf' hc' hne
      induction fs with
      | nil => simp
      | cons a fs ih =>
        cases fs with
        | nil => simp
        | cons b fs =>
          intro f hf
          simp only [List.intersperse_cons_cons, List.mem_cons] at hf ih ⊢
          rcases hf with rfl | rfl | hf
          · simp
          · simp
          · rcases ih f hf with h | h
            · exact .inl h
            · exact .inr (.inr h)
    rcases this f hf' with rfl | h
    · simp at hc'; subst hc'; decide
    · have := bit_free (hf f h c hc')
      omega
  obtain ⟨g, rfl⟩ := hc35
  refine ⟨?_, ⟨chars (35 :: g), by simp [chars], ?_, by simp [chars]⟩, ?_, ?_, map_intercalate fs 59⟩
  · intro c hc'
    rcases List.mem_append.1 hc' with h | h
    · have := hbody c h; omega
    · exact bit_ascii (hc c h)
  · exact not_mem_chars (d := 35) (by decide) fun c h => by have := hbody c h; omega
  · simpa using hne
  · intro f hf'
    obtain ⟨f, hf'', rfl⟩ := List.mem_map.1 hf'
    exact not_mem_chars (d := 59) (by decide) fun c h => by have := bit_free (hf f hf'' c h); omega

theorem word_free {c : Nat} (h : bit mWord c = true) : bit mFree c = true := by
  have : ∀ c < 256, bit mWord c = true → bit mFree c = true := by decide +kernel
  exact this c (bit_lt (by decide) h) h

theorem space_free {c : Nat} (h : bit mSpace c = true) : bit mFree c = true := by
  have : ∀ c < 256, bit mSpace c = true → bit mFree c = true := by decide +kernel
  exact this c (bit_lt (by decide) h) h

theorem qcOk_sound {v : QC} {r : List Nat} (h : qcOk v r = true) : ∃ w : Value, qcOf13 w = v ∧ chars r.reverse = w.name := by
  cases v with
  | yes => exact ⟨.yes, rfl, by rw [← eqL_iff.1 (show eqL [89] r = true from h)]; decide⟩
  | no => exact ⟨.no, rfl, by rw [← eqL_iff.1 (show eqL [78] r = true from h)]; decide⟩
  | maybe => exact ⟨.maybe, rfl, by rw [← eqL_iff.1 (show eqL [77] r = true from h)]; decide⟩

theorem propLine_sound {p : Prop4} {f0 s0 s1 f1 s2 : List Nat} {key cnt k n : Nat} {K : Cont} (p0 : ∀ c ∈ f0, bit mWord c = true) (p1 : ∀ c ∈ s0, bit mSpace c = true)
    (p3 : ∀ c ∈ s1, bit mSpace c = true) (p4 : ∀ c ∈ f1, bit mWord c = true) (p5 : ∀ c ∈ s2, bit mSpace c = true) (hn : chars f1 = p.name)
    (h : propLine (table13 p) (section' p) f0.reverse key cnt k n K = true) :
    ∃ l k' n', f0 ++ (s0 ++ 59 :: (s1 ++ (f1 ++ (s2 ++ unpack k n)))) = l ++ 10 :: unpack k' n' ∧ 10 ∉ l ∧
      ∃ q, PropsSays l q ∧ key ≤ quickKey q ∧ K (quickKey q + 1) (cnt + 1) k' n' = true := by
  obtain ⟨_, _, e1, h⟩ := eat_sound h
  obtain ⟨s3, _, _, e2, q2, h⟩ := span_sound h
  obtain ⟨f2, _, _, e3, q3, h⟩ := span_sound h
  obtain ⟨s4, _, _, e4, q4, h⟩ := span_sound h
  obtain ⟨h35, h⟩ | h := peek_sound h
  · obtain ⟨lo, hi, hr, h⟩ := range_sound h
    obtain ⟨a, b, v, hm, h⟩ := lookN_sound h
    simp only [both_iff, Nat.beq_eq, Nat.ble_eq] at h
    obtain ⟨rfl, rfl, hq, hkey, h⟩ := h
    obtain ⟨com, k', n', e5, hc, hK⟩ := skip_sound h
    have hc35 := bit_head e5 h35 (by decide)
    rw [List.reverse_reverse] at hr
    obtain ⟨w, rfl, hw⟩ := qcOk_sound hq
    rw [List.reverse_reverse] at hw
    have hff : ∀ f ∈ [f0 ++ s0, s1 ++ f1 ++ s2, s3 ++ f2 ++ s4], ∀ c ∈ f, bit mFree c = true := by
      intro f hf c hc'
      simp only [List.mem_cons, List.not_mem_nil, or_false] at hf
      rcases hf with rfl | rfl | rfl
      · rcases List.mem_append.1 hc' with h | h
        · exact word_free (p0 c h)
        · exact space_free (p1 c h)
      · simp only [List.mem_append] at hc'
        rcases hc' with (h | h) | h
        · exact space_free (p3 c h)
        · exact word_free (p4 c h)
        · exact space_free (p5 c h)
      · simp only [List.mem_append] at hc'
        rcases hc' with (h | h) | h
        · exact space_free (q2 c h)
        · exact word_free (q3 c h)
        · exact space_free (q4 c h)
    obtain ⟨g1, g2, g3⟩ := body_fields (by simp) hff hc hc35
    refine ⟨List.intercalate [59] [f0 ++ s0, s1 ++ f1 ++ s2, s3 ++ f2 ++ s4] ++ com, k', n', ?_, fun h => ?_, ⟨lo, hi, p, w⟩, ⟨?_, ?_, hm⟩, hkey, hK⟩
    · rw [e1, e2, e3, e4, e5]
      simp [List.intercalate]
    · have := g1 10 h
      omega
    · intro c hc'
      have := g1 c hc'
      omega
    · refine ⟨_, _, _, _, g2, g3, ⟨chars f0, ⟨[], chars s0, by simp [chars], by simp, blank_chars p1⟩, hr.chars⟩, ?_, ?_⟩
      · exact ⟨chars s1, chars s2, by rw [← hn]; simp [chars], blank_chars p3, blank_chars p5⟩
      · exact ⟨chars s3, chars s4, by rw [← hw]; simp [chars], blank_chars q2, blank_chars q4⟩
  · cases h

theorem ends_sound {f : List Nat} (h : ends f.reverse = true) : (∀ c ∈ (chars f).head?, c.isAlpha) ∧ ∀ c ∈ (chars f).getLast?, c.isAlpha := by
  have halpha : ∀ c, bit mAlpha c = true → (Char.ofNat c).isAlpha := by
    have : ∀ c < 256, bit mAlpha c = true → (Char.ofNat c).isAlpha := by decide +kernel
    exact fun c h => this c (bit_lt (by decide) h) h
  have key : ∀ (s : List Nat) (c : Nat), List.rec (motive := fun _ => Nat → Bool) (fun d => bit mAlpha d) (fun c _ ih _ => ih c) s c = true → ∀ x ∈ (c :: s).getLast?, bit mAlpha x = true := by
    intro s
    induction s with
    | nil => intro c h x hx; simp at hx; subst hx; exact h
    | cons d s ih =>
      intro c h x hx
      rw [List.getLast?_cons_cons] at hx
      exact ih d h x hx
  cases hr : f.reverse with
  | nil => rw [hr] at h; cases h
  | cons c s =>
    rw [hr] at h
    have h' : both (bit mAlpha c) (List.rec (motive := fun _ => Nat → Bool) (fun d => bit mAlpha d) (fun c _ ih _ => ih c) s c) = true := h
    rw [both_iff] at h'
    have h1 := key s c h'.2
    rw [← hr] at h1
    have h2 : f.getLast? = some c := by rw [← List.head?_reverse, hr]; rfl
    constructor
    · intro x hx
      rw [chars, List.head?_map, Option.mem_map] at hx
      obtain ⟨y, hy, rfl⟩ := hx
      exact halpha y (h1 y (by rw [List.getLast?_reverse]; exact hy))
    · intro x hx
      rw [chars, List.getLast?_map, h2] at hx
      simp at hx
      rw [← hx]
      exact halpha c h'.1

theorem name_ne {f : List Nat} (hf : ∀ c ∈ f, c < 128) {g : List Nat} (hg : ∀ c ∈ g, c < 128) (h : eqL g f.reverse = false) : chars f ≠ chars g.reverse := by
  have inj : ∀ a < 128, ∀ b < 128, Char.ofNat a = Char.ofNat b → a = b := by decide +kernel
  have hm : ∀ a b : List Nat, (∀ c ∈ a, c < 128) → (∀ c ∈ b, c < 128) → a.map Char.ofNat = b.map Char.ofNat → a = b := by
    intro a
    induction a with
    | nil => intro b _ _ h; cases b <;> simp_all
    | cons x a ih =>
      intro b ha hb h
      cases b with
      | nil => simp at h
      | cons y b =>
        simp only [List.map_cons, List.cons.injEq] at h
        rw [inj x (ha x (by simp)) y (hb y (by simp)) h.1, ih b (fun c hc => ha c (by simp [hc])) (fun c hc => hb c (by simp [hc])) h.2]
  intro e
  have := hm f g.reverse hf (fun c hc => hg c (by simpa using hc)) e
  rw [Bool.eq_false_iff] at h
  exact h (eqL_iff.2 (by rw [this, List.reverse_reverse]))

theorem elsewhere_sound {f0 s0 s1 f1 s2 com : List Nat} {fs : List (List Nat)} (p0 : ∀ c ∈ f0, bit mWord c = true) (p1 : ∀ c ∈ s0, bit mSpace c = true)
    (p3 : ∀ c ∈ s1, bit mSpace c = true) (p4 : ∀ c ∈ f1, bit mWord c = true) (p5 : ∀ c ∈ s2, bit mSpace c = true) (hfs : ∀ f ∈ fs, ∀ c ∈ f, bit mFree c = true)
    (hc : ∀ c ∈ com, bit mAscii c = true) (hc35 : ∃ g, com = 35 :: g) (he : ends f1.reverse = true) (hn : ∀ p : Prop4, chars f1 ≠ p.name) :
    10 ∉ List.intercalate [59] ((f0 ++ s0) :: (s1 ++ f1 ++ s2) :: fs) ++ com ∧ PropsQuiet (List.intercalate [59] ((f0 ++ s0) :: (s1 ++ f1 ++ s2) :: fs) ++ com) := by
  have hff : ∀ f ∈ (f0 ++ s0) :: (s1 ++ f1 ++ s2) :: fs, ∀ c ∈ f, bit mFree c = true := by
    intro f hf c hc'
    simp only [List.mem_cons] at hf
    rcases hf with rfl | rfl | hf
    · rcases List.mem_append.1 hc' with h | h
      · exact word_free (p0 c h)
      · exact space_free (p1 c h)
    · simp only [List.mem_append] at hc'
      rcases hc' with (h | h) | h
      · exact space_free (p3 c h)
      · exact word_free (p4 c h)
      · exact space_free (p5 c h)
    · exact hfs f hf c hc'
  obtain ⟨g1, g2, g3⟩ := body_fields (by simp) hff hc hc35
  refine ⟨fun h => ?_, .inr ⟨?_, _, _, g2, g3, ?_⟩⟩
  · have := g1 10 h
    omega
  · intro c hc'
    have := g1 c hc'
    omega
  · intro p hp
    simp only [List.map_cons, List.getElem?_cons_succ, List.getElem?_cons_zero, Option.some.injEq] at hp
    subst hp
    exact ⟨chars f1, ⟨chars s1, chars s2, by simp [chars], blank_chars p3, blank_chars p5⟩, (ends_sound he).1, (ends_sound he).2, hn⟩

theorem propsLine_sound : SoundL PropsQuiet PropsSays quickKey (propsLine nfcQC nfdQC nfkcQC nfkdQC) := by
  intro lo cnt k n K h
  rw [propsLine] at h
  obtain ⟨h35, h⟩ | h := peek_sound h
  · obtain ⟨f, k', n', h1, h2, h3⟩ := skip_sound h
    exact ⟨f, k', n', h1, fun h' => (bit_any (h2 10 h')).2.2 rfl, .inl ⟨.inl (bit_head h1 h35 (by decide)), h3⟩⟩
  obtain ⟨_, h⟩ | h := peek_sound h
  · obtain ⟨k', n', h1, h2⟩ := eat_sound h
    refine ⟨[], k', n', h1, by simp, .inl ⟨.inr ⟨by simp, [], [[]], ⟨[], rfl, by simp, by simp⟩, ⟨by simp, by simp, rfl⟩, by simp⟩, h2⟩⟩
  obtain ⟨f0, _, _, e0, p0, h⟩ := span_sound h
  obtain ⟨s0, _, _, e1, p1, h⟩ := span_sound h
  obtain ⟨_, _, e2, h⟩ := eat_sound h
  obtain ⟨s1, _, _, e3, p3, h⟩ := span_sound h
  obtain ⟨f1, _, _, e4, p4, h⟩ := span_sound h
  obtain ⟨s2, kk, nn, e5, p5, h⟩ := span_sound h
  have hf1 : ∀ c ∈ f1, c < 128 := fun c hc => by have := bit_word (p4 c hc); omega
  rw [e0, e1, e2, e3, e4, e5]
  have hp : ∀ p : Prop4, chars f1 = p.name → propLine (table13 p) (section' p) f0.reverse lo cnt kk nn K = true →
      ∃ l k' n', f0 ++ (s0 ++ 59 :: (s1 ++ (f1 ++ (s2 ++ unpack kk nn)))) = l ++ 10 :: unpack k' n' ∧ 10 ∉ l ∧
        (PropsQuiet l ∧ K lo cnt k' n' = true ∨ ∃ e, PropsSays l e ∧ lo ≤ quickKey e ∧ K (quickKey e + 1) (cnt + 1) k' n' = true) := by
    intro p hn h
    obtain ⟨l, k', n', h1, h2, h3⟩ := propLine_sound p0 p1 p3 p4 p5 hn h
    exact ⟨l, k', n', h1, h2, .inr h3⟩
  have hname : ∀ g : List Nat, eqL g f1.reverse = true → chars f1 = chars g.reverse := fun g h => by rw [eqL_iff.1 h, List.reverse_reverse]
  cases hd : eqL [67, 81, 95, 68, 70, 78] f1.reverse with
  | true => simp only [hd] at h; exact hp .nfd ((hname _ hd).trans (by decide)) h
  | false =>
  simp only [hd] at h
  cases hc : eqL [67, 81, 95, 67, 70, 78] f1.reverse with
  | true => simp only [hc] at h; exact hp .nfc ((hname _ hc).trans (by decide)) h
  | false =>
  simp only [hc] at h
  cases hkc : eqL [67, 81, 95, 67, 75, 70, 78] f1.reverse with
  | true => simp only [hkc] at h; exact hp .nfkc ((hname _ hkc).trans (by decide)) h
  | false =>
  simp only [hkc] at h
  cases hkd : eqL [67, 81, 95, 68, 75, 70, 78] f1.reverse with
  | true => simp only [hkd] at h; exact hp .nfkd ((hname _ hkd).trans (by decide)) h
  | false =>
  simp only [hkd, both_iff] at h
  have hne : ∀ p : Prop4, chars f1 ≠ p.name := by
    intro p
    cases p with
    | nfc => exact name_ne hf1 (by decide) hc
    | nfd => exact name_ne hf1 (by decide) hd
    | nfkc => exact name_ne hf1 (by decide) hkc
    | nfkd => exact name_ne hf1 (by decide) hkd
  obtain ⟨he, h⟩ := h
  obtain ⟨h35, h⟩ | h := peek_sound h
  · obtain ⟨com, k', n', e6, hcom, hK⟩ := skip_sound h
    obtain ⟨q1, q2⟩ := elsewhere_sound (fs := []) p0 p1 p3 p4 p5 (by simp) hcom (bit_head e6 h35 (by decide)) he hne
    refine ⟨_, k', n', ?_, q1, .inl ⟨q2, hK⟩⟩
    rw [e6]
    simp [List.intercalate]
  obtain ⟨_, _, e6, h⟩ := eat_sound h
  obtain ⟨f2, _, _, e7, p7, h⟩ := span_sound h
  obtain ⟨h35, h⟩ | h := peek_sound h
  · obtain ⟨com, k', n', e8, hcom, hK⟩ := skip_sound h
    obtain ⟨q1, q2⟩ := elsewhere_sound (fs := [f2]) p0 p1 p3 p4 p5 (by simpa using p7) hcom (bit_head e8 h35 (by decide)) he hne
    refine ⟨_, k', n', ?_, q1, .inl ⟨q2, hK⟩⟩
    rw [e6, e7, e8]
    simp [List.intercalate]
  · cases h

theorem Piece.props {c : Piece} (h : c.okProps = true) : PartG PropsQuiet PropsSays quickKey c.bytes c.m c.lo c.hi := chunkG_sound propsLine_sound h

/-! ### Decoding -/

/-- A way to decode the lines of a file: ASCII is itself, a line feed only comes from a line feed, and a line that begins with `#` still does. Both UTF-8 and
Latin-1 are such. -/
structure Decoder (d : List Nat → Str) : Prop where
  ascii : ∀ l, (∀ c ∈ l, c < 128) → d l = chars l
  feed : ∀ l, 10 ∉ l → '\n' ∉ d l
  hash : ∀ l, ∃ t, d (35 :: l) = '#' :: t

theorem elsewhere_hash (t : Str) : Elsewhere ('#' :: t) := ⟨[], [[]], ⟨'#' :: t, rfl, by simp, by simp⟩, ⟨by simp, by simp, rfl⟩, by simp⟩

def tableSizes : Nat := size nfdQC + (size nfcQC + (size nfkdQC + size nfkcQC))

theorem props_checking {text : List Nat} {lo hi : Nat} (h : PartG PropsQuiet PropsSays quickKey text tableSizes lo hi) :
    ∃ (ls : List (List Nat)) (qs : List Quick), text = ls.flatMap (fun l => l ++ [10]) ∧ (∀ l ∈ ls, 10 ∉ l) ∧ Props13 qs ∧ ∀ d, Decoder d → Checking (ls.map d) qs := by
  obtain ⟨_, ls, qs, h1, h2, h3, h4, h5, h6⟩ := h
  refine ⟨ls, qs, h1, h2, ?_, ?_⟩
  · have hgood : ∀ q ∈ qs, (q.lo, q.hi, qcOf13 q.value) ∈ (table13 q.prop).toList := by
      clear h1 h2 h4 h5 h6
      induction h3 with
      | nil => simp
      | quiet l ls es h _ ih => exact ih
      | line l ls e es h _ ih =>
        intro x hx
        rcases List.mem_cons.1 hx with rfl | hx
        · exact h.2.2
        · exact ih x hx
    let f : Quick → Prop4 × Nat × Nat × QC := fun q => (q.prop, q.lo, q.hi, qcOf13 q.value)
    let T : List (Prop4 × Nat × Nat × QC) := [Prop4.nfd, .nfc, .nfkd, .nfkc].flatMap fun p => (table13 p).toList.map (p, ·)
    have hT : ∀ p x, (p, x) ∈ T ↔ x ∈ (table13 p).toList := by
      intro p x
      simp only [T, List.mem_flatMap, List.mem_map, Prod.mk.injEq]
      constructor
      · rintro ⟨_, _, _, h, rfl, rfl⟩
        exact h
      · intro h
        exact ⟨p, by cases p <;> simp, x, h, rfl, rfl⟩
    have hlen : T.length = tableSizes := by
      simp only [T, List.flatMap_cons, List.flatMap_nil, List.length_append, List.length_map, size_toList, List.length_nil, Nat.add_zero]
      rfl
    have hnd : (qs.map f).Nodup := by
      refine List.pairwise_map.2 (h5.imp fun {a b} hab e => ?_)
      simp only [f, Prod.mk.injEq] at e
      obtain ⟨e1, e2, _, e4⟩ := e
      rw [quickKey, quickKey, e1, e2, e4] at hab
      omega
    have hsub : qs.map f ⊆ T := by
      intro x hx
      obtain ⟨q, hq, rfl⟩ := List.mem_map.1 hx
      exact (hT _ _).2 (hgood q hq)
    have hperm := (List.subperm_of_subset hnd hsub).perm_of_length_le (by rw [hlen, List.length_map, h4])
    intro p lo hi v
    rw [← hT, ← hperm.mem_iff, List.mem_map]
    constructor
    · rintro ⟨q, hq, rfl, rfl, rfl, rfl⟩
      exact ⟨q, hq, rfl⟩
    · rintro ⟨q, hq, e⟩
      simp only [f, Prod.mk.injEq] at e
      exact ⟨q, hq, e⟩
  · intro d hd
    clear h1 h2 h4 h5 h6
    induction h3 with
    | nil => exact .nil
    | quiet l ls es h _ ih =>
      refine .other _ _ _ ?_ ih
      obtain ⟨g, rfl⟩ | ⟨h, h'⟩ := h
      · obtain ⟨t, ht⟩ := hd.hash g
        rw [ht]
        exact elsewhere_hash t
      · rw [hd.ascii l h]
        exact h'
    | line l ls e es h _ ih =>
      refine .line _ _ _ _ ?_ ih
      rw [hd.ascii l h.1]
      exact h.2.1

/-! ### CompositionExclusions.txt -/

theorem nth_iff {l : List Nat} : ∀ {i v : Nat}, nth l i v = true → l[i]? = some v := by
  induction l with
  | nil => intro i v h; cases h
  | cons c l ih =>
    intro i v h
    cases i with
    | zero => have : c = v := Nat.eq_of_beq_eq_true h; simp [this]
    | succ i => simpa using ih (show nth l i v = true from h)

def ExclQuiet (l : List Nat) : Prop := (∃ g, l = 35 :: g) ∨ l = []

def ExclSays (l : List Nat) (e : Nat × Nat) : Prop := (∀ c ∈ l, c < 128) ∧ Excludes (chars l) e.2 ∧ exclusions[e.1]? = some e.2

theorem exclLine_sound : SoundL ExclQuiet ExclSays Prod.fst exclLine := by
  intro lo cnt k n K h
  rw [exclLine] at h
  obtain ⟨h35, h⟩ | h := peek_sound h
  · obtain ⟨f, k', n', h1, h2, h3⟩ := skip_sound h
    exact ⟨f, k', n', h1, fun h' => (bit_any (h2 10 h')).2.2 rfl, .inl ⟨.inl (bit_head h1 h35 (by decide)), h3⟩⟩
  obtain ⟨_, h⟩ | h := peek_sound h
  · obtain ⟨k', n', h1, h2⟩ := eat_sound h
    exact ⟨[], k', n', h1, by simp, .inl ⟨.inr rfl, h2⟩⟩
  obtain ⟨f0, _, _, e0, p0, h⟩ := span_sound h
  obtain ⟨h32, h⟩ | h := peek_sound h
  · simp only [both_iff] at h
    obtain ⟨h1, h2, h3⟩ := h
    obtain ⟨com, k', n', e1, hc, hK⟩ := skip_sound h3
    obtain ⟨g, hg⟩ := bit_head e1 h32 (by decide)
    have hl : ∀ c ∈ f0 ++ com, 32 ≤ c ∧ c < 127 := by
      intro c hc'
      rcases List.mem_append.1 hc' with h | h
      · have := bit_word (p0 c h); omega
      · exact bit_ascii (hc c h)
    refine ⟨f0 ++ com, k', n', by rw [e0, e1, List.append_assoc], fun h => ?_, .inr ⟨(lo, val 16 f0.reverse), ⟨fun c h => ?_, ?_, nth_iff h2⟩, le_refl _, hK⟩⟩
    · have := hl 10 h
      omega
    · have := hl c h
      omega
    · refine ⟨[], chars f0, chars com, by simp [chars], by simp, ?_, by rw [hg]; intro c hc'; simp [chars] at hc'; exact .inl hc'.symm⟩
      have := hexOk_number h1
      rwa [List.reverse_reverse] at this
  · cases h

theorem Piece.excl {c : Piece} (h : c.okExcl = true) : PartG ExclQuiet ExclSays Prod.fst c.bytes c.m c.lo c.hi := chunkG_sound exclLine_sound h

theorem excl_reading {text : List Nat} {lo hi : Nat} (h : PartG ExclQuiet ExclSays Prod.fst text exclusions.length lo hi) :
    ∃ ls : List (List Nat), text = ls.flatMap (fun l => l ++ [10]) ∧ (∀ l ∈ ls, 10 ∉ l) ∧ ∀ d, Decoder d → Exclusions (ls.map d) exclusions := by
  obtain ⟨_, ls, es, h1, h2, h3, h4, h5, h6⟩ := h
  refine ⟨ls, h1, h2, ?_⟩
  have hgood : ∀ e ∈ es, exclusions[e.1]? = some e.2 := by
    clear h1 h2 h4 h5 h6
    induction h3 with
    | nil => simp
    | quiet l ls es h _ ih => exact ih
    | line l ls e es h _ ih =>
      intro x hx
      rcases List.mem_cons.1 hx with rfl | hx
      · exact h.2.2
      · exact ih x hx
  have hk : es.map Prod.fst = List.range exclusions.length := by
    refine keys_eq (List.pairwise_map.2 h5) List.pairwise_lt_range ?_ (by simp [h4])
    intro x hx
    obtain ⟨e, he, rfl⟩ := List.mem_map.1 hx
    obtain ⟨h, _⟩ := List.getElem?_eq_some_iff.1 (hgood e he)
    exact List.mem_range.2 h
  have hv : es.map Prod.snd = exclusions := by
    refine List.ext_getElem (by simp [h4]) fun i hi hi' => ?_
    have hi2 : i < es.length := by simpa using hi
    have e1 : (es[i]).1 = i := by
      have := congrArg (·[i]?) hk
      simp only [List.getElem?_map, List.getElem?_eq_getElem hi2, List.getElem?_range hi', Option.map_some, Option.some.injEq] at this
      exact this
    have e2 := hgood _ (List.getElem_mem hi2)
    rw [e1, List.getElem?_eq_getElem hi', Option.some.injEq] at e2
    rw [List.getElem_map, ← e2]
  intro d hd
  rw [← hv]
  clear h1 h2 h4 h5 h6 hgood hk hv
  induction h3 with
  | nil => exact .nil
  | quiet l ls es h _ ih =>
    refine .quiet _ _ _ ?_ ih
    obtain ⟨g, rfl⟩ | rfl := h
    · obtain ⟨t, ht⟩ := hd.hash g
      exact ⟨[], d (35 :: g), rfl, by simp, by simp [ht]⟩
    · rw [hd.ascii [] (by simp)]
      exact ⟨[], [], rfl, by simp, by simp⟩
  | line l ls e es h _ ih =>
    refine .line _ _ _ _ ?_ ih
    rw [hd.ascii l h.1]
    exact h.2.1

end Verif.Shipped
