import Verif.Props.NarrowHalf
/-!
# C81: how far apart the two ways can be
-/
set_option autoImplicit false
namespace FastFloat
open NumSpec FloatSpec ApiSpec

/-- Rounding in two steps, if the first step gives a midpoint: the direct result is one of its neighbours. -/
theorem rounds_twice_tie {W N : FloatTy} (h : Wider W N) {x : ℚ} {w n k : Nat} (hw : W.spec.RoundsTo x w) (hn : N.spec.RoundsTo x n) (hwf : w < W.spec.inf)
    (hk : k + 1 ≤ N.spec.inf) (ht : 2 * W.spec.val w = N.spec.val k + N.spec.val (k + 1)) : n = k ∨ n = k + 1 := by
  have hnle : n ≤ N.spec.inf := by rcases hn with ⟨_, h⟩ | ⟨_, h, _⟩ <;> omega
  by_contra hc
  rw [not_or] at hc
  rcases Nat.lt_or_ge n k with hlt | hge
  · obtain ⟨m1, _⟩ := rounds_mids hn (by omega)
    obtain ⟨j, j1, j2⟩ := wider_mid h (k := n) (by omega)
    have h1 := (rounds_side hw hwf j1).1 (by linarith)
    have h2 := sval_lt N hlt
    have h3 := sval_lt N (show n + 1 < k + 1 by omega)
    linarith
  · obtain ⟨i, rfl⟩ : ∃ i, n = i + 1 := ⟨n - 1, by omega⟩
    obtain ⟨j, j1, j2⟩ := wider_mid h (k := i) (by omega)
    have hx : W.spec.val j ≤ x := by
      rcases Nat.lt_or_ge (i + 1) N.spec.inf with h' | h'
      · have := (rounds_mids hn h').2 i rfl
        linarith
      · have e : i + 1 = N.spec.inf := by omega
        have h1 := (roundsTo_inf hn).1 e
        have h2 := val_inf_mid N
        rw [← e, Nat.add_sub_cancel] at h2
        linarith
    have h1 := (rounds_side hw hwf j1).2 hx
    have h2 := sval_lt N (show k < i by omega)
    have h3 := sval_lt N (show k + 1 < i + 1 by omega)
    linarith

/-- **C81**: if the wider value is exactly half way between the neighbours `k` and `k + 1` of the narrow type, `from_chars` for the narrow type stores one of these
two: the two ways differ by at most one unit in the last place. -/
theorem C81_tie (c : Cfg) {ct : CharType} {W N : FloatTy} (h : Wider W N) (hW : W ≠ .float16) {s : List Nat} (opt : Options) (hin : Input ct s)
    (hp : (grammar c opt).PointOK) (hnum : ¬ InfNanText c opt s) {off off' bw bn : Nat} {ec ec' : Errc}
    (hw : fromCharsFloat c ct W.fmt s opt = .ok ⟨off, ec, some bw⟩) (hn : fromCharsFloat c ct N.fmt s opt = .ok ⟨off', ec', some bn⟩) :
    ∃ (neg : Bool) (w n : Nat), bw = (if neg then W.spec.signBit else 0) + w ∧ bn = (if neg then N.spec.signBit else 0) + n ∧
      ∀ k, w < W.spec.inf → k + 1 ≤ N.spec.inf → 2 * W.spec.val w = N.spec.val k + N.spec.val (k + 1) → n = k ∨ n = k + 1 := by
  obtain ⟨o1, s1⟩ := (C55_total c W hW opt hin hp _).1 hw
  have s2 : ∃ number : Numeral → Code → Nat → Prop, (∀ a code bits, number a code bits → ∃ n, bits = (if a.clip.neg then N.spec.signBit else 0) + n ∧
      (N.spec.RoundsTo a.clip.value n ∨ (N = .float16 ∧ ∃ j : Nat, j ≤ 16 ∧ a.clip.value = (2 * j + 1) / 2 ^ 25 ∧ n = j + 1))) ∧
      FloatCall N.spec number (c.eff opt) opt.decimalPoint (textOf c opt s) (s.drop off') ec'.code (some bn) := by
    by_cases hN : N = .float16
    · subst hN
      refine ⟨_, fun a code bits hr => ?_, ((C55_total_float16 c opt hin hp _).1 hn).2⟩
      by_cases hx : HalfException 16 a.clip.value
      · obtain ⟨j, j1, j2, j3⟩ := hx
        exact ⟨j + 1, hr.exception j j1 j2 j3, Or.inr ⟨rfl, j, j2, j3, rfl⟩⟩
      · obtain ⟨n, n1, n2⟩ := hr.rounded hx
        exact ⟨n, n2, Or.inl n1⟩
    · refine ⟨_, fun a code bits hr => ?_, ((C55_total c N hN opt hin hp _).1 hn).2⟩
      obtain ⟨n, n1, n2⟩ := hr.rounded
      exact ⟨n, n2, Or.inl n1⟩
  obtain ⟨number, hnumber, s2⟩ := s2
  dsimp only at o1 s1
  generalize hr1 : s.drop off = r1 at s1
  generalize hr2 : s.drop off' = r2 at s2
  generalize hc1 : ec.code = c1 at s1
  generalize hc2 : ec'.code = c2 at s2
  generalize hb1 : some bw = v1 at s1
  generalize hb2 : some bn = v2 at s2
  cases s1 with
  | infinity allowed text => exact absurd (Or.inl ⟨_, _, text⟩) hnum
  | nan allowed text => exact absurd (Or.inr ⟨_, _, text⟩) hnum
  | invalid => cases hb1
  | @number a _ _ bits text result =>
    cases s2 with
    | infinity allowed text => exact absurd (Or.inl ⟨_, _, text⟩) hnum
    | nan allowed text => exact absurd (Or.inr ⟨_, _, text⟩) hnum
    | invalid => cases hb2
    | @number a' _ _ bits' text' result' =>
      obtain ⟨rfl, e⟩ := munch_unique hp text text'
      cases hb1
      cases hb2
      obtain ⟨w, w1, w2⟩ := result.rounded
      obtain ⟨n, n2, n1⟩ := hnumber _ _ _ result'
      refine ⟨a.clip.neg, w, n, w2, n2, fun k hwf hk ht => ?_⟩
      rcases n1 with n1 | ⟨rfl, j, j2, j3, rfl⟩
      · exact rounds_twice_tie h w1 n1 hwf hk ht
      · right
        have hi : half.inf = 31744 := by decide +kernel
        obtain ⟨i, i1, i2⟩ := wider_mid h (k := j) (by show j + 1 ≤ half.inf; omega)
        have i3 : 2 * W.spec.val i = half.val j + half.val (j + 1) := i2
        have ht : 2 * W.spec.val w = half.val k + half.val (k + 1) := ht
        have e1 : half.val j + half.val (j + 1) = 2 * ((2 * (j : ℚ) + 1) / 2 ^ 25) := by
          rw [half_small (by omega), half_small (by omega)]; push_cast; ring
        have u1 := (rounds_side w1 hwf i1).1 (by rw [j3]; linarith)
        have u2 := (rounds_side w1 hwf i1).2 (by rw [j3]; linarith)
        have e2 : half.val k + half.val (k + 1) = half.val j + half.val (j + 1) := by linarith
        rcases Nat.lt_trichotomy j k with hlt | heq | hgt
        · have a1 : half.val j < half.val k := sval_lt .float16 hlt
          have a2 : half.val (j + 1) < half.val (k + 1) := sval_lt .float16 (by omega)
          linarith
        · omega
        · have a1 : half.val k < half.val j := sval_lt .float16 hgt
          have a2 : half.val (k + 1) < half.val (j + 1) := sval_lt .float16 (by omega)
          linarith

/-- The two calls of `C81_sharp` meet the hypotheses: the double is the midpoint over 1. -/
example : ∃ (neg : Bool) (w n : Nat), (0x3ff0000010000000 : Nat) = (if neg then double.signBit else 0) + w ∧ (0x3f800001 : Nat) = (if neg then single.signBit else 0) + n ∧
    ∀ k, w < double.inf → k + 1 ≤ single.inf → 2 * double.val w = single.val k + single.val (k + 1) → n = k ∨ n = k + 1 :=
  C81_tie Cfg.x64 wider_double_float (by decide) (ct := .char) {} (input_of_bytes (by decide) (by decide)) sample_point
    (not_infnan_of_digit (d := 49) (t := ("1.0000000596046447753906250000000001".toList.map Char.toNat).tail) (by decide +kernel) (by unfold NumSpec.IsDigit; decide)) C81_sharp.1 C81_sharp.2.1

end FastFloat
