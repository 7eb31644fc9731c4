import Verif.Proofs.Squeeze
import Verif.Props.Unicode

/-!
# C128: decomposition into a buffer of any size

C85 is violated: with little room Hangul syllables are left as they are. Here is what the call does for every text and every room, and what a user
can rely on nevertheless.
-/

set_option autoImplicit false

namespace Verif.Unicode
open Verif.Utf8 Verif.Spec.Unicode Verif.Spec.Utf8 Verif.Unidata Verif.UniGen

/-- C128: for every text and room, what is returned and what is stored: the text as squeezed into the room, in canonical order. -/
theorem unicode_decompose_exact {p : Pos} {t : List UInt8} (hp : Input p t) {cps : List Nat} {b : Bool} (hs : Scan Loose t cps b)
    {buf : List UInt8} {e : Nat} (he : e ≤ buf.length) :
    ∃ r buf', Returns (decompose unicode13 p buf (some e)) (r, buf') ∧ buf'.length = buf.length ∧ buf'.drop e = buf.drop e ∧
      ((b = true ∧ ∃ d y, Squeezed unicode13.decomp e cps d ∧ (encs d).length < e ∧ Exchanges unicode13.ccc d y ∧ Ordered unicode13.ccc y ∧
          r = .ptr (encs y).length ∧ buf'.take ((encs y).length + 1) = encs y ++ [0]) ∨
       (b = false ∧ (∃ d, Squeezed unicode13.decomp e cps d) ∧ r = .null .eilseq) ∨
       ((∀ d, Squeezed unicode13.decomp e cps d → b = true ∧ (encs d).length = e) ∧ r = .null .eoverflow)) := by
  obtain ⟨f, h1, h2, _⟩ := fullAll_exists (scan_scalar hs)
  obtain ⟨r, buf', h3, h4, h5, h6⟩ := decompose_squeezed tables decomp_no_syllables hs (buf := buf) (e := e) hp h1 h2 he
  refine ⟨r, buf', h3, h4, h5, ?_⟩
  rcases h6 with ⟨rfl, d, g1, g2, rfl, g3⟩ | ⟨rfl, ⟨d, g1, g2⟩, rfl⟩ | h6 | ⟨g1, rfl⟩
  · have hlen := encs_perm_length (ord_perm (ccc := unicode13.ccc) d)
    exact Or.inl ⟨rfl, d, ord unicode13.ccc d, g1, g2, ord_of d, ord_ordered d, by rw [hlen], by rw [hlen]; exact g3⟩
  · exact Or.inr (Or.inr ⟨fun d' h => ⟨rfl, squeezed_unique g1 h ▸ g2⟩, rfl⟩)
  · exact Or.inr (Or.inl h6)
  · exact Or.inr (Or.inr ⟨fun d h => absurd h (g1 d), rfl⟩)

/-- A text is squeezed into a room in at most one way, so that the cases above exclude each other. -/
theorem unicode_squeezed_unique {dm : Nat → Option (List Nat)} {n : Nat} {cps d d' : List Nat} (h : Squeezed dm n cps d) (h' : Squeezed dm n cps d') :
    d = d' := (squeezed_unique h h').symm

/-- C128: a result has the canonical decomposition of the text, however small the room. At most two syllables are left in it, and none if six bytes
or more are left over: then it is the canonical decomposition. -/
theorem unicode_decompose_equivalent {p : Pos} {t : List UInt8} (hp : Input p t) {cps : List Nat} {b : Bool} (hs : Scan Loose t cps b)
    {buf buf' : List UInt8} {e q : Nat} (he : e ≤ buf.length) (h : Returns (decompose unicode13 p buf (some e)) (.ptr q, buf')) :
    ∃ y, q = (encs y).length ∧ buf'.take (q + 1) = encs y ++ [0] ∧ (∀ c ∈ y, IsScalar c) ∧ (∀ z, NFD13 cps z ↔ NFD13 y z) ∧
      y.countP (fun c => decide (0xAC00 ≤ c ∧ c ≤ 0xD7A3)) ≤ 2 ∧ (q + 6 ≤ e → NFD13 cps y) := by
  obtain ⟨f, h1, h2, _⟩ := fullAll_exists (scan_scalar hs)
  obtain ⟨r, b', h3, -, -, h6⟩ := decompose_squeezed tables decomp_no_syllables hs (buf := buf) (e := e) hp h1 h2 he
  obtain ⟨rfl, rfl⟩ := Prod.mk.inj (returns_unique h3 h)
  rcases h6 with ⟨rfl, d, g1, g2, hr, g3⟩ | ⟨_, _, hr⟩ | ⟨_, _, hr⟩ | ⟨_, hr⟩
  · simp only [Res.ptr.injEq] at hr
    subst hr
    have hlen := encs_perm_length (ord_perm (ccc := unicode13.ccc) d)
    refine ⟨ord unicode13.ccc d, hlen.symm, g3, fun c hc => squeezed_scalar g1 h1 h2 c ((ord_perm d).mem_iff.1 hc), fun z => ?_, ?_, fun hq => ?_⟩
    · have k1 : NFD13 cps (ord unicode13.ccc f) := nfd_iff.2 ⟨f, h1, rfl⟩
      have k2 : NFD13 (ord unicode13.ccc d) (ord unicode13.ccc f) :=
        nfd_iff.2 ⟨_, squeezed_nfd tables g1 h1, (ord_self (ord_ordered f)).symm⟩
      exact ⟨fun hz => nfd_unique k1 hz ▸ k2, fun hz => nfd_unique k2 hz ▸ k1⟩
    · rw [(ord_perm d).countP_eq]
      have := squeezed_count tables g1
      omega
    · obtain rfl := squeezed_complete tables g1 h1 hq
      exact nfd_iff.2 ⟨_, h1, rfl⟩
  all_goals cases hr

/-- C128: recomposing what `charstr_unicode_decompose` returned yields normalization form C of the text, if both calls succeed, whatever the sizes of
the buffers. -/
theorem unicode_normalize_any_room {p : Pos} {t : List UInt8} (hp : Input p t) {cps : List Nat} (hs : Seq Loose t cps) (h0 : 0 ∉ cps)
    {buf buf' : List UInt8} {e q : Nat} (he : e ≤ buf.length) (h : Returns (decompose unicode13 p buf (some e)) (.ptr q, buf'))
    {out out' : List UInt8} {e' q' : Nat} (he' : e' ≤ out.length) (h' : Returns (recompose unicode13 (buf', some q) out (some e')) (.ptr q', out')) :
    ∃ z, NFC13 cps z ∧ q' = (encs z).length ∧ out'.take (q' + 1) = encs z ++ [0] := by
  have hs' := scan_true.2 hs
  obtain ⟨f, h1, h2, _⟩ := fullAll_exists (scan_scalar hs')
  obtain ⟨r, b', h3, hbl, -, h6⟩ := decompose_squeezed tables decomp_no_syllables hs' (buf := buf) (e := e) hp h1 h2 he
  obtain ⟨rfl, rfl⟩ := Prod.mk.inj (returns_unique h3 h)
  rcases h6 with ⟨_, d, g1, g2, hr, g3⟩ | ⟨_, _, hr⟩ | ⟨_, _, hr⟩ | ⟨_, hr⟩
  · simp only [Res.ptr.injEq] at hr
    subst hr
    have hlen := encs_perm_length (ord_perm (ccc := unicode13.ccc) d)
    have hsc : ∀ c ∈ ord unicode13.ccc d, IsScalar c := fun c hc => squeezed_scalar g1 h1 h2 c ((ord_perm d).mem_iff.1 hc)
    have hf := squeezed_nfd tables g1 h1
    have hz : 0 ∉ ord unicode13.ccc d := by
      intro hm
      have hf0 : 0 ∈ f := by
        have := squeezed_mixed tables g1 0 ((ord_perm d).mem_iff.1 hm)
        rcases this with k | k
        · obtain ⟨a, c, hac⟩ := List.append_of_mem hm
          rw [hac] at hf
          obtain ⟨_, _, _, k2, k3⟩ := fullAll_append hf
          cases k2 with
          | cons k4 _ =>
            obtain rfl := full_unique k k4
            have : 0 ∈ ord unicode13.ccc f := by rw [k3]; simp
            exact (ord_perm f).mem_iff.1 this
        · obtain ⟨l, v, t, _, _, _, k⟩ := k
          simp only [syllable] at k; omega
      exact fullAll_nonzero decomp_nonzero h1 h0 hf0
    have hin : Input (b', some (encs d).length) (encs (ord unicode13.ccc d)) := by
      refine ⟨b'.drop (encs d).length, ?_, by rw [encs_zero hsc]; exact hz, Or.inl (by rw [hlen])⟩
      have : b'.take (encs d).length = encs (ord unicode13.ccc d) := by
        have := congrArg (List.take (encs d).length) g3
        rw [List.take_take, Nat.min_eq_left (by omega), List.take_left' hlen] at this
        exact this
      rw [← this, List.take_append_drop]
    obtain ⟨y, k1, k2, r, o', k3, k4, k5, k6, k7, k8⟩ := unicode_recompose_correct hin (scan_encs hsc) (buf := out) (e := e') he'
    obtain ⟨rfl, rfl⟩ := Prod.mk.inj (returns_unique k3 h')
    obtain ⟨_, k9, k10⟩ := k7 q' rfl
    obtain ⟨k11, k12⟩ := k6 rfl k9 k10
    simp only [Res.ptr.injEq] at k11
    subst k11
    refine ⟨y, ⟨ord unicode13.ccc f, nfd_iff.2 ⟨f, h1, rfl⟩, ?_⟩, rfl, by rw [k12]; exact take_nul _ _⟩
    rw [compose_primary] at k1 ⊢
    exact compose_full tables (fun c hc => squeezed_mixed tables g1 c ((ord_perm d).mem_iff.1 hc)) hf k1
  all_goals cases hr

theorem squeezed_two : Squeezed unicode13.decomp 8 [0xAC01, 0xAC00] [0xAC01, 0xAC00] := by
  have h1 : Full unicode13.decomp 0xAC01 (jamo 0 0 1) := .hangul (l := 0) (v := 0) (t := 1) (by rw [unicode13_eq]; decide +kernel) (by decide) (by decide) (by decide)
  have h2 : Full unicode13.decomp 0xAC00 (jamo 0 0 0) := .hangul (l := 0) (v := 0) (t := 0) (by rw [unicode13_eq]; decide +kernel) (by decide) (by decide) (by decide)
  refine .left ⟨0, 0, 1, by decide, by decide, by decide, rfl⟩ h1 (by decide +kernel) (by decide +kernel) ?_
  exact .left ⟨0, 0, 0, by decide, by decide, by decide, rfl⟩ h2 (by decide +kernel) (by decide +kernel) .nil

/-- In a room of eight bytes the syllables U+AC01 U+AC00 are both left; two bytes are left over. -/
example : ∃ buf', Returns (decompose unicode13 (encs [0xAC01, 0xAC00] ++ [0], none) (List.replicate 8 7) (some 8)) (.ptr 6, buf') ∧
    buf'.take 7 = encs [0xAC01, 0xAC00] ++ [0] ∧ ¬ NFD13 [0xAC01, 0xAC00] [0xAC01, 0xAC00] := by
  have hn : ¬ NFD13 [0xAC01, 0xAC00] [0xAC01, 0xAC00] := by
    intro h
    obtain ⟨d, h1, h2⟩ := nfd_iff.1 h
    have hc : (0xAC01 : Nat) ∈ d := (ord_perm (ccc := unicode13.ccc) d).mem_iff.1 (by rw [← h2]; simp)
    exact (fullAll_atoms tables h1 _ hc).2 ⟨0, 0, 1, by decide, by decide, by decide, rfl⟩
  have hin : Input (encs [0xAC01, 0xAC00] ++ [0], none) (encs [0xAC01, 0xAC00]) := input_encs (by decide) (by decide) []
  obtain ⟨r, buf', h1, -, -, h4⟩ := unicode_decompose_exact hin (scan_encs (by decide)) (buf := List.replicate 8 7) (e := 8) (by decide)
  rcases h4 with ⟨-, d, y, g1, -, g3, g4, rfl, g6⟩ | ⟨h, -⟩ | ⟨h, -⟩
  · obtain rfl := squeezed_unique squeezed_two g1
    have hy := exchanges_ordered_iff.1 ⟨g3, g4⟩
    have h3 : ord unicode13.ccc [0xAC01, 0xAC00] = [0xAC01, 0xAC00] := by rw [unicode13_eq]; decide +kernel
    have h6 : (encs [0xAC01, 0xAC00]).length = 6 := by decide +kernel
    rw [hy, h3, h6] at h1 g6
    exact ⟨buf', h1, g6, hn⟩
  · cases h
  · exact absurd (h _ squeezed_two).2 (by decide +kernel)

end Verif.Unicode
