import Verif.Spec.Narrow
import Verif.Props.AnyPoint
import Verif.Props.ErrorBound
import Verif.Proofs.DoubleRound
/-
# C81: parsing as a wider type and converting
-/
set_option linter.unusedSimpArgs false
set_option autoImplicit false
namespace FastFloat
open NumSpec FloatSpec ApiSpec

theorem sval_le (T : FloatTy) {a b : Nat} (h : a ≤ b) : T.spec.val a ≤ T.spec.val b := by
  rcases Nat.lt_or_ge a b with h' | h'
  · exact (sval_lt T h').le
  · rw [Nat.le_antisymm h h']

/-- A correctly rounded value lies between the neighbouring midpoints. -/
theorem rounds_mids {T : FloatTy} {x : ℚ} {b : Nat} (h : T.spec.RoundsTo x b) (hb : b < T.spec.inf) :
    2 * x ≤ T.spec.val b + T.spec.val (b + 1) ∧ ∀ k, k + 1 = b → T.spec.val k + T.spec.val b ≤ 2 * x := by
  rcases h with ⟨_, h⟩ | ⟨h1, _, h3⟩
  · omega
  constructor
  · rcases Nat.lt_or_ge (b + 1) T.spec.inf with hlt | hge
    · have h4 : |x - T.spec.val b| ≤ |x - T.spec.val (b + 1)| := by
        rcases h3 (b + 1) hlt (by omega) with h | h
        · exact h.le
        · exact h.1.le
      have h5 := sval_lt T (show b < b + 1 by omega)
      by_contra hc
      rw [not_le] at hc
      rw [abs_of_pos (by linarith)] at h4
      rcases abs_cases (x - T.spec.val (b + 1)) with ⟨e, _⟩ | ⟨e, _⟩ <;> rw [e] at h4 <;> linarith
    · have e : b + 1 = T.spec.inf := by omega
      have := val_inf_mid T
      rw [← e, Nat.add_sub_cancel] at this
      linarith
  · rintro k rfl
    have h4 : |x - T.spec.val (k + 1)| ≤ |x - T.spec.val k| := by
      rcases h3 k (by omega) (by omega) with h | h
      · exact h.le
      · exact h.1.le
    have h5 := sval_lt T (show k < k + 1 by omega)
    by_contra hc
    rw [not_le] at hc
    rw [abs_of_neg (a := x - T.spec.val (k + 1)) (by linarith)] at h4
    rcases abs_cases (x - T.spec.val k) with ⟨e, _⟩ | ⟨e, _⟩ <;> rw [e] at h4 <;> linarith

/-- Strictly between the neighbouring midpoints, rounding gives the float in between. -/
theorem rounds_of_mids {T : FloatTy} {x : ℚ} {b : Nat} (hb : b < T.spec.inf) (h1 : 2 * x < T.spec.val b + T.spec.val (b + 1))
    (h2 : ∀ k, k + 1 = b → T.spec.val k + T.spec.val b < 2 * x) : T.spec.RoundsTo x b := by
  refine Or.inr ⟨?_, hb, fun b' hb' hne => Or.inl ?_⟩
  · have h3 := val_inf_mid T
    have h4 := sval_le T (show b ≤ T.spec.inf - 1 by omega)
    have h5 := sval_le T (show b + 1 ≤ T.spec.inf by omega)
    linarith
  · rcases Nat.lt_or_gt_of_ne hne with hlt | hgt
    · obtain ⟨k, rfl⟩ : ∃ k, b = k + 1 := ⟨b - 1, by omega⟩
      have h3 := h2 k rfl
      have h4 := sval_le T (show b' ≤ k by omega)
      have h5 := sval_lt T (show b' < k + 1 by omega)
      rw [abs_of_pos (a := x - T.spec.val b') (by linarith)]
      rw [abs_lt]
      constructor <;> linarith
    · have h4 := sval_le T (show b + 1 ≤ b' by omega)
      have h5 := sval_lt T (show b < b' by omega)
      rw [abs_of_neg (a := x - T.spec.val b') (by linarith)]
      rw [abs_lt]
      constructor <;> linarith

/-- Rounding does not move a value past a float. -/
theorem rounds_side {T : FloatTy} {x : ℚ} {b j : Nat} (h : T.spec.RoundsTo x b) (hb : b < T.spec.inf) (hj : j < T.spec.inf) :
    (x ≤ T.spec.val j → T.spec.val b ≤ T.spec.val j) ∧ (T.spec.val j ≤ x → T.spec.val j ≤ T.spec.val b) := by
  rcases h with ⟨_, h⟩ | ⟨h1, _, h3⟩
  · omega
  by_cases hjb : j = b
  · subst hjb; exact ⟨fun _ => le_rfl, fun _ => le_rfl⟩
  have h4 : |x - T.spec.val b| ≤ |x - T.spec.val j| := by
    rcases h3 j hj hjb with h | h
    · exact h.le
    · exact h.1.le
  constructor
  · intro h5
    by_contra hc
    rw [not_le] at hc
    rw [abs_of_neg (by linarith), abs_of_nonpos (by linarith)] at h4
    linarith
  · intro h5
    by_contra hc
    rw [not_le] at hc
    rw [abs_of_pos (by linarith), abs_of_nonneg (by linarith)] at h4
    linarith

/-- The format of `W` holds the midpoints of the format of `N`. -/
structure Wider (W N : FloatTy) : Prop where
  mb : N.fmt.mb + 1 ≤ W.fmt.mb
  ulp : ulpExp N.fmt + 1 ≤ ulpExp W.fmt
  range : N.spec.val N.spec.inf ≤ W.spec.val W.spec.inf

theorem wider_val {W N : FloatTy} (h : N.fmt.infPow + ulpExp W.fmt + N.fmt.mb ≤ W.fmt.infPow + ulpExp N.fmt + W.fmt.mb) (hW : 1 ≤ W.fmt.infPow) (hN : 1 ≤ N.fmt.infPow) :
    N.spec.val N.spec.inf ≤ W.spec.val W.spec.inf := by
  rw [val_eq N.fmatch, val_eq W.fmatch, N.fmatch.inf, W.fmatch.inf, fpVal_inf _ hN, fpVal_inf _ hW, div_le_div_iff₀ (by positivity) (by positivity)]
  push_cast
  rw [← pow_add, ← pow_add, ← pow_add, ← pow_add]
  exact pow_le_pow_right₀ (by norm_num) (by omega)

theorem wider_double_float : Wider .double .float := ⟨by decide, by decide, wider_val (by decide) (by decide) (by decide)⟩
theorem wider_double_bfloat : Wider .double .bfloat16 := ⟨by decide, by decide, wider_val (by decide) (by decide) (by decide)⟩
theorem wider_float_bfloat : Wider .float .bfloat16 := ⟨by decide, by decide, wider_val (by decide) (by decide) (by decide)⟩

/-- The midpoints of the narrow format are floats of the wide one. -/
theorem wider_mid {W N : FloatTy} (h : Wider W N) {k : Nat} (hk : k + 1 ≤ N.spec.inf) :
    ∃ j, j < W.spec.inf ∧ 2 * W.spec.val j = N.spec.val k + N.spec.val (k + 1) := by
  obtain ⟨t, m, e1, e2, _⟩ := mid_form N.fmt.mb k
  obtain ⟨d, hd⟩ : ∃ d, ulpExp W.fmt = ulpExp N.fmt + 1 + d := ⟨ulpExp W.fmt - (ulpExp N.fmt + 1), by have := h.ulp; omega⟩
  have hle : 2 * m + 1 ≤ 2 ^ (W.fmt.mb + 1) := by
    have h1 : 2 ^ (N.fmt.mb + 2) ≤ 2 ^ (W.fmt.mb + 1) := Nat.pow_le_pow_right (by norm_num) (by have := h.mb; omega)
    have h2 : 2 ^ (N.fmt.mb + 2) = 2 * 2 ^ (N.fmt.mb + 1) := by rw [pow_succ]; ring
    omega
  obtain ⟨j, hj⟩ := exact_idx W.fmt.mb (t + d) (2 * m + 1) hle
  have hval : 2 * W.spec.val j = N.spec.val k + N.spec.val (k + 1) := by
    rw [val_eq N.fmatch, val_eq N.fmatch, val_eq W.fmatch, ← add_div]
    have e3 : ((fpVal N.fmt.mb k : ℚ) + fpVal N.fmt.mb (k + 1)) = (2 * m + 1) * 2 ^ t := by exact_mod_cast e1
    rw [e3, hj, hd]
    push_cast
    rw [pow_add, pow_add, pow_add]
    field_simp
  refine ⟨j, ?_, hval⟩
  by_contra hc
  have h1 := sval_le W (show W.spec.inf ≤ j by omega)
  have h2 := sval_lt N (show k < k + 1 by omega)
  have h3 := sval_le N hk
  have h4 := h.range
  linarith

/-- Rounding in two steps. -/
theorem rounds_twice {W N : FloatTy} (h : Wider W N) {x : ℚ} {w n : Nat} (hw : W.spec.RoundsTo x w) (hn : N.spec.RoundsTo x n) :
    (w = W.spec.inf → n = N.spec.inf) ∧ (w < W.spec.inf → ¬ N.spec.Midpoint (W.spec.val w) → N.spec.RoundsTo (W.spec.val w) n) := by
  have hinf : 1 ≤ N.spec.inf := by cases N <;> decide +kernel
  obtain ⟨th, t1, t2⟩ := wider_mid h (k := N.spec.inf - 1) (by omega)
  rw [Nat.sub_add_cancel hinf, ← val_inf_mid N] at t2
  have t3 : W.spec.val th = N.spec.overflowThreshold := by linarith
  constructor
  · rintro rfl
    refine (roundsTo_inf hn).2 ?_
    have h1 := (roundsTo_inf hw).1 rfl
    have h2 := val_inf_mid W
    have h3 := sval_le W (show th ≤ W.spec.inf - 1 by omega)
    have h4 := sval_le W (show th ≤ W.spec.inf by omega)
    linarith
  · intro hwf hmid
    have hnle : n ≤ N.spec.inf := by rcases hn with ⟨_, h⟩ | ⟨_, h, _⟩ <;> omega
    rcases Nat.lt_or_ge n N.spec.inf with hlt | hge
    · obtain ⟨m1, m2⟩ := rounds_mids hn hlt
      refine rounds_of_mids hlt ?_ ?_
      · obtain ⟨j, j1, j2⟩ := wider_mid h (k := n) (by omega)
        have h1 := (rounds_side hw hwf j1).1 (by linarith)
        refine lt_of_le_of_ne (by linarith) fun he => hmid ⟨n, by omega, he⟩
      · rintro k rfl
        obtain ⟨j, j1, j2⟩ := wider_mid h (k := k) (by omega)
        have h1 := (rounds_side hw hwf j1).2 (by have := m2 k rfl; linarith)
        refine lt_of_le_of_ne (by linarith) fun he => hmid ⟨k, by omega, he.symm⟩
    · obtain rfl : n = N.spec.inf := by omega
      have h1 := (roundsTo_inf hn).1 rfl
      refine Or.inl ⟨?_, rfl⟩
      rw [← t3] at h1 ⊢
      exact (rounds_side hw hwf t1).2 h1

/-- **C81**: parsing as a wider type and converting.  For one text and one options value let a call for `W` and a call for the narrower `N` both read a number (no
spelled infinity or NaN), and let `w` be the magnitude stored by the first.  If `w` is infinity, so is what the second stores.  If `w` is finite and is not exactly
half way between two neighbours of the narrow format, the second stores exactly what converting `w` (rounding to nearest, ties to even) gives. -/
theorem C81_narrow (c : Cfg) {ct : CharType} {W N : FloatTy} (h : Wider W N) (hW : W ≠ .float16) (hN : N ≠ .float16) {s : List Nat} (opt : Options) (hin : Input ct s)
    (hnum : ¬ InfNanText c opt s) {off off' bw bn : Nat} {ec ec' : Errc} (hw : fromCharsFloat c ct W.fmt s opt = .ok ⟨off, ec, some bw⟩)
    (hn : fromCharsFloat c ct N.fmt s opt = .ok ⟨off', ec', some bn⟩) :
    off = off' ∧ ∃ (neg : Bool) (w n : Nat), bw = (if neg then W.spec.signBit else 0) + w ∧ bn = (if neg then N.spec.signBit else 0) + n ∧
      (w = W.spec.inf → n = N.spec.inf) ∧ (w < W.spec.inf → ¬ N.spec.Midpoint (W.spec.val w) → N.spec.RoundsTo (W.spec.val w) n) := by
  obtain ⟨o1, s1⟩ := (C74_every_option c W hW opt hin _).1 hw
  obtain ⟨o2, s2⟩ := (C74_every_option c N hN opt hin _).1 hn
  dsimp only at o1 o2 s1 s2
  generalize hr1 : s.drop off = r1 at s1
  generalize hr2 : s.drop off' = r2 at s2
  generalize hc1 : ec.code = c1 at s1
  generalize hc2 : ec'.code = c2 at s2
  generalize hb1 : some bw = v1 at s1
  generalize hb2 : some bn = v2 at s2
  cases s1 with
  | infinity allowed text => exact absurd (Or.inl ⟨_, _, text⟩) hnum
  | nan allowed text => exact absurd (Or.inr ⟨_, _, text⟩) hnum
  | invalid => cases hb1
  | @number a _ _ bits text result =>
    cases s2 with
    | infinity allowed text => exact absurd (Or.inl ⟨_, _, text⟩) hnum
    | nan allowed text => exact absurd (Or.inr ⟨_, _, text⟩) hnum
    | invalid => cases hb2
    | @number a' _ _ bits' text' result' =>
      obtain ⟨rfl, e⟩ := C74_greedy_unique text text'
      cases hb1
      cases hb2
      have hoff : off = off' := by
        have := congrArg List.length (hr1.trans (e.trans hr2.symm))
        simp at this; omega
      obtain ⟨w, w1, w2⟩ := result.rounded
      obtain ⟨n, n1, n2⟩ := result'.rounded
      exact ⟨hoff, a.neg, w, n, w2, n2, rounds_twice h w1 n1⟩

/-- **C81**: the condition is needed: for "1.0000000596046447753906250000000001" (just above a midpoint of `float`) the double stored is that midpoint, and converting it
gives 1, but `from_chars` for `float` gives the next float. -/
theorem C81_sharp :
    fromCharsFloat Cfg.x64 CharType.char binary64 ("1.0000000596046447753906250000000001".toList.map Char.toNat) {} = .ok ⟨36, .ok, some 0x3ff0000010000000⟩ ∧
    fromCharsFloat Cfg.x64 CharType.char binary32 ("1.0000000596046447753906250000000001".toList.map Char.toNat) {} = .ok ⟨36, .ok, some 0x3f800001⟩ ∧
    single.Midpoint (double.val 0x3ff0000010000000) ∧ single.RoundsTo (double.val 0x3ff0000010000000) 0x3f800000 := by
  have hv : double.val 0x3ff0000010000000 = 1 + 1 / 2 ^ 24 := by norm_num [Format.val, double, Format.bias]
  have h0 : single.val 0x3f800000 = 1 := by norm_num [Format.val, single, Format.bias]
  have h1 : single.val 0x3f800001 = 1 + 1 / 2 ^ 23 := by norm_num [Format.val, single, Format.bias]
  have h2 : single.val 0x3f7fffff = 1 - 1 / 2 ^ 24 := by norm_num [Format.val, single, Format.bias]
  have hi : single.inf = 0x7f800000 := by decide +kernel
  refine ⟨by decide +kernel, by decide +kernel, ⟨0x3f800000, by rw [hi]; norm_num, ?_⟩, ?_⟩
  · rw [hv, h0, h1]; norm_num
  · refine Or.inr ⟨?_, by rw [hi]; norm_num, fun b' hb' hne => ?_⟩
    · rw [hv]; norm_num [Format.overflowThreshold, single, Format.bias]
    · rw [hv, h0]
      rcases Nat.lt_or_gt_of_ne hne with hlt | hgt
      · left
        have h3 : single.val b' ≤ single.val 0x3f7fffff := sval_le .float (by omega)
        rw [h2] at h3
        rw [abs_of_pos (a := 1 + 1 / 2 ^ 24 - single.val b') (by norm_num at h3 ⊢; linarith), abs_of_pos (by norm_num)]
        norm_num at h3 ⊢; linarith
      · have h3 : single.val 0x3f800001 ≤ single.val b' := sval_le .float (by omega)
        rw [h1] at h3
        rw [abs_of_neg (a := 1 + 1 / 2 ^ 24 - single.val b') (by norm_num at h3 ⊢; linarith), abs_of_pos (by norm_num)]
        norm_num at h3 ⊢
        rcases lt_or_eq_of_le h3 with h | h
        · left; linarith
        · right; rw [← h]; norm_num

/-! ### Sample -/

theorem not_midpoint {T : FloatTy} {y : ℚ} (b : Nat) (h1 : T.spec.val b + T.spec.val (b + 1) < 2 * y) (h2 : 2 * y < T.spec.val (b + 1) + T.spec.val (b + 2)) :
    ¬ T.spec.Midpoint y := by
  rintro ⟨k, _, h⟩
  rcases Nat.lt_or_ge b k with hk | hk
  · have a := sval_le T (show b + 1 ≤ k by omega)
    have a' := sval_le T (show b + 2 ≤ k + 1 by omega)
    linarith
  · have a := sval_le T hk
    have a' := sval_le T (show k + 1 ≤ b + 1 by omega)
    linarith

theorem not_infnan_of_digit {c : Cfg} {opt : Options} {s : List Nat} {d : Nat} {t : List Nat} (h : textOf c opt s = d :: t) (hd : NumSpec.IsDigit d) :
    ¬ InfNanText c opt s := by
  unfold NumSpec.IsDigit at hd
  have key : ∀ {neg : Bool} {u r w : List Nat} {a : Nat}, Signed (plusFlag (c.eff opt)) (textOf c opt s) neg u → StartsWith (a :: w) u r → a < 48 ∨ 57 < a → False := by
    rintro neg u r w a h1 ⟨v, h2, h3⟩ ha
    cases v with
    | nil => simp at h3
    | cons b v =>
      simp only [List.map_cons, List.cons.injEq] at h3
      rw [h] at h1
      have hb : b = d := by
        rcases h1 with ⟨_, h1⟩ | ⟨_, h1⟩ | ⟨_, _, h1⟩
        · simp only [List.cons.injEq] at h1; omega
        · rw [h2] at h1; simp only [List.cons_append, List.cons.injEq] at h1; exact h1.1.symm
        · simp only [List.cons.injEq] at h1; omega
      have h4 := h3.1
      rw [hb] at h4
      unfold lower at h4
      split at h4 <;> omega
  rintro (⟨_, _, u, r, h1, h2, _⟩ | ⟨_, _, u, r, h1, h2, _⟩)
  · exact key h1 h2 (by decide)
  · exact key h1 h2 (by decide)

/-- "0.1" as `double` is no midpoint of `float`, so that `from_chars` for `float` stores what converting the double gives. -/
example : single.RoundsTo (double.val 0x3fb999999999999a) 0x3dcccccd := by
  have hm : ¬ single.Midpoint (double.val 0x3fb999999999999a) := by
    have hv : double.val 0x3fb999999999999a = 3602879701896397 / 2251799813685248 / 2 ^ 4 := by
      have e : double.val 0x3fb999999999999a = 3602879701896397 / 2251799813685248 * 2 ^ 1019 / 2 ^ 1023 := by
        norm_num [Format.val, double, Format.bias]
      rw [e, show (2 : ℚ) ^ 1023 = 2 ^ 1019 * 2 ^ 4 by rw [← pow_add]]
      field_simp
    rw [hv]
    refine not_midpoint (T := .float) 0x3dcccccc ?_ ?_ <;>
      norm_num [Format.val, single, Format.bias, FloatTy.spec]
  obtain ⟨_, neg, w, n, e1, e2, _, e3⟩ := C81_narrow Cfg.x64 wider_double_float (by decide) (by decide) {} (ct := .char) (s := "0.1".toList.map Char.toNat)
    (input_of_bytes (by decide) (by decide)) (not_infnan_of_digit (d := 48) (t := [46, 49]) (by decide) (by unfold NumSpec.IsDigit; decide))
    (off := 3) (off' := 3) (bw := 0x3fb999999999999a) (bn := 0x3dcccccd) (ec := .ok) (ec' := .ok) (by decide +kernel) (by decide +kernel)
  have s1 : FloatTy.double.spec.signBit = 2 ^ 63 := by decide +kernel
  have s2 : FloatTy.float.spec.signBit = 2 ^ 31 := by decide +kernel
  have hi : FloatTy.double.spec.inf = 0x7ff0000000000000 := by decide +kernel
  rw [s1] at e1
  rw [s2] at e2
  cases neg
  · simp only [Bool.false_eq_true, if_false, Nat.zero_add] at e1 e2
    rw [← e1, ← e2] at e3
    exact e3 (by rw [hi]; norm_num) hm
  · simp only [if_true] at e1
    omega

end FastFloat
