import Verif.Props.Narrow
import Verif.Props.HalfExact
import Verif.Props.Total
/-!
# C81 for float16
-/
set_option autoImplicit false
namespace FastFloat
open NumSpec FloatSpec ApiSpec

theorem wider_double_half : Wider .double .float16 := ⟨by decide, by decide, wider_val (by decide) (by decide) (by decide)⟩
theorem wider_float_half : Wider .float .float16 := ⟨by decide, by decide, wider_val (by decide) (by decide) (by decide)⟩

theorem half_small {j : Nat} (h : j < 1024) : half.val j = j / 2 ^ 24 := by
  unfold Format.val
  have h1 : j / 2 ^ half.fracBits = 0 := by show j / 1024 = 0; omega
  have h2 : j % 2 ^ half.fracBits = j := by show j % 1024 = j; omega
  simp only [h1, h2, if_true]
  show (j : ℚ) / 2 ^ 10 * 2 / 2 ^ 15 = j / 2 ^ 24
  ring

/-- The exceptions of C04 are midpoints, and the wider format holds them. -/
theorem exception_kept {W : FloatTy} (h : Wider W .float16) {x : ℚ} {w : Nat} (hw : W.spec.RoundsTo x w) (hx : HalfException 16 x) :
    w < W.spec.inf ∧ half.Midpoint (W.spec.val w) := by
  obtain ⟨j, _, hj, rfl⟩ := hx
  have hi : half.inf = 31744 := by decide +kernel
  have hm : 2 * ((2 * (j : ℚ) + 1) / 2 ^ 25) = half.val j + half.val (j + 1) := by
    rw [half_small (by omega), half_small (by omega)]; push_cast; ring
  obtain ⟨k, k1, k2⟩ := wider_mid h (k := j) (by show j + 1 ≤ half.inf; omega)
  have k3 : W.spec.val k = (2 * (j : ℚ) + 1) / 2 ^ 25 := by
    have : 2 * W.spec.val k = half.val j + half.val (j + 1) := k2
    linarith
  have hlt : w < W.spec.inf := by
    have hle : w ≤ W.spec.inf := by rcases hw with ⟨_, h⟩ | ⟨_, h, _⟩ <;> omega
    rcases Nat.lt_or_ge w W.spec.inf with h | h
    · exact h
    · exfalso
      have h1 := (roundsTo_inf hw).1 (by omega)
      have h2 := val_inf_mid W
      have h3 := sval_le W (show k ≤ W.spec.inf - 1 by omega)
      have h4 := sval_lt W (show W.spec.inf - 1 < W.spec.inf by omega)
      linarith
  refine ⟨hlt, j, by rw [hi]; omega, ?_⟩
  have a := (rounds_side hw hlt k1).1 k3.ge
  have b := (rounds_side hw hlt k1).2 k3.le
  rw [le_antisymm a b, k3, hm]

/-- **C81** for `float16_t`: parsing as `double` or `float` and converting.  The exceptions of C04 make no difference: there the wider value is a midpoint. -/
theorem C81_narrow_float16 (c : Cfg) {ct : CharType} {W : FloatTy} (h : Wider W .float16) (hW : W ≠ .float16) {s : List Nat} (opt : Options) (hin : Input ct s)
    (hp : (grammar c opt).PointOK) (hnum : ¬ InfNanText c opt s) {off off' bw bn : Nat} {ec ec' : Errc}
    (hw : fromCharsFloat c ct W.fmt s opt = .ok ⟨off, ec, some bw⟩) (hn : fromCharsFloat c ct binary16 s opt = .ok ⟨off', ec', some bn⟩) :
    off = off' ∧ ∃ (neg : Bool) (w n : Nat), bw = (if neg then W.spec.signBit else 0) + w ∧ bn = (if neg then half.signBit else 0) + n ∧
      (w = W.spec.inf → n = half.inf) ∧ (w < W.spec.inf → ¬ half.Midpoint (W.spec.val w) → half.RoundsTo (W.spec.val w) n) := by
  obtain ⟨o1, s1⟩ := (C55_total c W hW opt hin hp _).1 hw
  obtain ⟨o2, s2⟩ := (C55_total_float16 c opt hin hp _).1 hn
  dsimp only at o1 o2 s1 s2
  generalize hr1 : s.drop off = r1 at s1
  generalize hr2 : s.drop off' = r2 at s2
  generalize hc1 : ec.code = c1 at s1
  generalize hc2 : ec'.code = c2 at s2
  generalize hb1 : some bw = v1 at s1
  generalize hb2 : some bn = v2 at s2
  cases s1 with
  | infinity allowed text => exact absurd (Or.inl ⟨_, _, text⟩) hnum
  | nan allowed text => exact absurd (Or.inr ⟨_, _, text⟩) hnum
  | invalid => cases hb1
  | @number a _ _ bits text result =>
    cases s2 with
    | infinity allowed text => exact absurd (Or.inl ⟨_, _, text⟩) hnum
    | nan allowed text => exact absurd (Or.inr ⟨_, _, text⟩) hnum
    | invalid => cases hb2
    | @number a' _ _ bits' text' result' =>
      obtain ⟨rfl, e⟩ := munch_unique hp text text'
      cases hb1
      cases hb2
      have hoff : off = off' := by
        have := congrArg List.length (hr1.trans (e.trans hr2.symm))
        simp at this; omega
      obtain ⟨w, w1, w2⟩ := result.rounded
      by_cases hx : HalfException 16 a.clip.value
      · obtain ⟨k1, k2⟩ := exception_kept h w1 hx
        obtain ⟨j, j1, j2, j3⟩ := hx
        exact ⟨hoff, a.clip.neg, w, j + 1, w2, result'.exception j j1 j2 j3, fun h => absurd h (by omega), fun _ h => absurd k2 h⟩
      · obtain ⟨n, n1, n2⟩ := result'.rounded hx
        exact ⟨hoff, a.clip.neg, w, n, w2, n2, rounds_twice h w1 n1⟩

/-- "0.1" as `double` is no midpoint of `float16_t`, so that `from_chars` for `float16_t` stores what converting the double gives. -/
example : half.RoundsTo (double.val 0x3fb999999999999a) 0x2e66 := by
  have hm : ¬ half.Midpoint (double.val 0x3fb999999999999a) := by
    have hv : double.val 0x3fb999999999999a = 3602879701896397 / 2251799813685248 / 2 ^ 4 := by
      have e : double.val 0x3fb999999999999a = 3602879701896397 / 2251799813685248 * 2 ^ 1019 / 2 ^ 1023 := by
        norm_num [Format.val, double, Format.bias]
      rw [e, show (2 : ℚ) ^ 1023 = 2 ^ 1019 * 2 ^ 4 by rw [← pow_add]]
      field_simp
    rw [hv]
    refine not_midpoint (T := .float16) 0x2e65 ?_ ?_ <;>
      norm_num [Format.val, half, Format.bias, FloatTy.spec]
  obtain ⟨_, neg, w, n, e1, e2, _, e3⟩ := C81_narrow_float16 Cfg.x64 wider_double_half (by decide) {} (ct := .char) (s := "0.1".toList.map Char.toNat)
    (input_of_bytes (by decide) (by decide)) sample_point (not_infnan_of_digit (d := 48) (t := [46, 49]) (by decide) (by unfold NumSpec.IsDigit; decide))
    (off := 3) (off' := 3) (bw := 0x3fb999999999999a) (bn := 0x2e66) (ec := .ok) (ec' := .ok) (by decide +kernel) (by decide +kernel)
  have s1 : FloatTy.double.spec.signBit = 2 ^ 63 := by decide +kernel
  have s2 : half.signBit = 2 ^ 15 := by decide +kernel
  have hi : FloatTy.double.spec.inf = 0x7ff0000000000000 := by decide +kernel
  rw [s1] at e1
  rw [s2] at e2
  cases neg
  · simp only [Bool.false_eq_true, if_false, Nat.zero_add] at e1 e2
    rw [← e1, ← e2] at e3
    exact e3 (by rw [hi]; norm_num) hm
  · simp only [if_true] at e1
    omega

end FastFloat
