import Verif.Proofs.Clinger
import Verif.Proofs.RNSpec
import Verif.Proofs.Types
import Verif.Spec.Ieee
import Verif.Props.Vocabulary
/-
# C37: the floating-point unit of the model is IEEE 754's

The fast path computes with the machine's `T(uint64_t)`, `*`, `/` (and `+`, `-` to find out the rounding direction), in the rounding direction of the thread and in
the format that `FLT_EVAL_METHOD` says.  The theorems about the library hold for every direction and every evaluation method; they would say
less than they seem to if the model of the hardware were not the hardware.  Here: every operation of the model is the operation of the standard.
-/
set_option autoImplicit false
namespace FastFloat
open FloatSpec

/-- The direction of a thread's rounding mode, for non-negative results. -/
def RoundMode.direction : RoundMode → Direction
  | .nearest => .nearest
  | .up => .up
  | .down => .down
  | .zero => .zero

/-- The index below `num/den`. -/
def truncIdx (mb num den : Nat) : Nat := (Nat.log2 (num / den) - mb) * 2 ^ mb + num / (den * 2 ^ (Nat.log2 (num / den) - mb))

theorem truncIdx_spec {mb : Nat} (num den : Nat) (hd : 0 < den) :
    (fpVal mb (truncIdx mb num den) : ℚ) ≤ (num : ℚ) / den ∧ (num : ℚ) / den < fpVal mb (truncIdx mb num den + 1) ∧
      (num % (den * 2 ^ (Nat.log2 (num / den) - mb)) = 0 → (num : ℚ) / den = fpVal mb (truncIdx mb num den)) ∧
      (num % (den * 2 ^ (Nat.log2 (num / den) - mb)) ≠ 0 → (fpVal mb (truncIdx mb num den) : ℚ) < (num : ℚ) / den) := by
  unfold truncIdx
  obtain ⟨j, hj⟩ : ∃ j, Nat.log2 (num / den) - mb = j := ⟨_, rfl⟩
  rw [hj]
  have hp : 0 < den * 2 ^ j := Nat.mul_pos hd (Nat.two_pow_pos j)
  have hdq : (0 : ℚ) < den := by exact_mod_cast hd
  have h2q : (0 : ℚ) < 2 ^ j := by positivity
  have hq : num / (den * 2 ^ j) = num / den / 2 ^ j := by rw [Nat.div_div_eq_div_mul]
  have h1 : j = 0 ∨ 2 ^ mb ≤ num / (den * 2 ^ j) := by
    rcases Nat.eq_zero_or_pos j with h | h
    · exact Or.inl h
    · right
      have hne : num / den ≠ 0 := by intro hc; rw [hc] at hj; simp at hj; omega
      have hl := Nat.log2_self_le hne
      have e : Nat.log2 (num / den) = mb + j := by omega
      rw [e, pow_add] at hl
      rw [hq]
      exact (Nat.le_div_iff_mul_le (Nat.two_pow_pos j)).2 hl
  have h2 : num / (den * 2 ^ j) < 2 ^ (mb + 1) := by
    rw [hq, Nat.div_lt_iff_lt_mul (Nat.two_pow_pos j), ← pow_add]
    exact lt_of_lt_of_le Nat.lt_log2_self (Nat.pow_le_pow_right (by norm_num) (by omega))
  obtain ⟨b1, b2, b3⟩ := div_bounds num (den * 2 ^ j) hp
  have ex : (num : ℚ) / den = (num : ℚ) / (den * 2 ^ j : Nat) * 2 ^ j := by
    push_cast; rw [← div_div, div_mul_cancel₀ _ h2q.ne']
  rw [fpVal_lin mb j _ h1 h2, fpVal_succ mb j _ h1 h2, ex]
  push_cast
  push_cast at b1 b2 b3
  refine ⟨mul_le_mul_of_nonneg_right b1 h2q.le, mul_lt_mul_of_pos_right b2 h2q, fun hz => ?_, fun hz => mul_lt_mul_of_pos_right ?_ h2q⟩
  · rw [b3, hz]; simp
  · rw [b3]
    have hpos : 0 < num % (den * 2 ^ j) := Nat.pos_of_ne_zero hz
    have : (0 : ℚ) < ((num % (den * 2 ^ j) : Nat) : ℚ) / (den * 2 ^ j) := by
      have : (0 : ℚ) < ((num % (den * 2 ^ j) : Nat) : ℚ) := by exact_mod_cast hpos
      positivity
    linarith

theorem fpVal_le_iff {mb a b : Nat} : (fpVal mb a : ℚ) ≤ fpVal mb b ↔ a ≤ b := by
  constructor
  · intro h
    by_contra hc
    have : (fpVal mb b : ℚ) < fpVal mb a := by exact_mod_cast fpVal_strictMono (by omega)
    linarith
  · intro h; exact_mod_cast fpVal_mono h

theorem val_le_iff {F : BinFmt} {f : Format} (h : FormatMatch F f) {a b : Nat} : f.val a ≤ f.val b ↔ a ≤ b := by
  have hp : (0 : ℚ) < 2 ^ ulpExp F := by positivity
  rw [val_eq h, val_eq h, div_le_div_iff_of_pos_right hp, fpVal_le_iff]

theorem infIdx_pos {F : BinFmt} {f : Format} (h : FormatMatch F f) : 0 < infIdx F := by
  have := h.infb; have := h.biaspos
  unfold infIdx
  exact Nat.mul_pos (by omega) (Nat.two_pow_pos _)

/-- Rounding of the model is rounding of the standard, in all four directions. -/
theorem fpRound_rounds {F : BinFmt} {f : Format} (h : FormatMatch F f) (mode : RoundMode) (num den : Nat) (hd : 0 < den) :
    f.RoundsIn mode.direction ((num : ℚ) / den / 2 ^ ulpExp F) (fpRound F mode num den) := by
  have hp : (0 : ℚ) < 2 ^ ulpExp F := by positivity
  obtain ⟨t1, t2, t3, t4⟩ := truncIdx_spec (mb := F.mb) num den hd
  have hinf := infIdx_pos h
  have hmono : ∀ {a b : Nat}, (fpVal F.mb a : ℚ) < fpVal F.mb b ↔ a < b := fun {a b} => by rw [← not_le, fpVal_le_iff, not_le]
  have hv : ∀ b, f.val b ≤ (num : ℚ) / den / 2 ^ ulpExp F ↔ b ≤ truncIdx F.mb num den := by
    intro b
    rw [val_eq h, div_le_div_iff_of_pos_right hp]
    constructor
    · intro hb
      have := hmono.1 (lt_of_le_of_lt hb t2)
      omega
    · intro hb
      exact le_trans (fpVal_le_iff.2 hb) t1
  have hdown : f.DownTo ((num : ℚ) / den / 2 ^ ulpExp F) (min (truncIdx F.mb num den) (infIdx F - 1)) := by
    refine ⟨by rw [h.inf]; omega, (hv _).2 (min_le_left _ _), fun b' hb' hx => ?_⟩
    rw [val_le_iff h]
    have := (hv b').1 hx
    rw [h.inf] at hb'
    omega
  have etrunc : ∀ k, (if (Nat.log2 (num / den) - F.mb) * 2 ^ F.mb + num / (den * 2 ^ (Nat.log2 (num / den) - F.mb)) + k < infIdx F then
      (Nat.log2 (num / den) - F.mb) * 2 ^ F.mb + num / (den * 2 ^ (Nat.log2 (num / den) - F.mb)) + k else infIdx F - 1) =
      min (truncIdx F.mb num den + k) (infIdx F - 1) := by
    intro k
    unfold truncIdx
    split <;> omega
  cases mode with
  | nearest =>
    show f.RoundsTo _ _
    rw [fpRound_nearest]
    refine roundsTo_of_RN h ?_
    rw [div_mul_cancel₀ _ hp.ne']
    exact RN_fpRoundIdx h.mbpos num den hd
  | down =>
    show f.DownTo _ _
    have e : fpRound F .down num den = min (truncIdx F.mb num den) (infIdx F - 1) := etrunc 0
    rw [e]; exact hdown
  | zero =>
    show f.DownTo _ _
    have e : fpRound F .zero num den = min (truncIdx F.mb num den) (infIdx F - 1) := etrunc 0
    rw [e]; exact hdown
  | up =>
    show f.UpTo _ _
    obtain ⟨k, hk⟩ : ∃ k, k = (if num % (den * 2 ^ (Nat.log2 (num / den) - F.mb)) = 0 then 0 else 1) := ⟨_, rfl⟩
    have e : fpRound F .up num den = min (truncIdx F.mb num den + k) (infIdx F) := by
      have e1 : (if roundsUp .up (num / (den * 2 ^ (Nat.log2 (num / den) - F.mb))) (num % (den * 2 ^ (Nat.log2 (num / den) - F.mb)))
          (den * 2 ^ (Nat.log2 (num / den) - F.mb)) = true then 1 else 0) = k := by
        rw [hk]
        unfold roundsUp
        by_cases hz : num % (den * 2 ^ (Nat.log2 (num / den) - F.mb)) = 0
        · rw [if_pos hz]; simp [hz]
        · rw [if_neg hz]; simp [Nat.pos_of_ne_zero hz]
      unfold fpRound truncIdx
      simp only [e1]
      split <;> omega
    have hu : ∀ b, (num : ℚ) / den / 2 ^ ulpExp F ≤ f.val b ↔ truncIdx F.mb num den + k ≤ b := by
      intro b
      rw [val_eq h, div_le_div_iff_of_pos_right hp, hk]
      by_cases hz : num % (den * 2 ^ (Nat.log2 (num / den) - F.mb)) = 0
      · rw [if_pos hz, t3 hz, fpVal_le_iff]; rfl
      · rw [if_neg hz]
        constructor
        · intro hb
          have := hmono.1 (lt_of_lt_of_le (t4 hz) hb)
          omega
        · intro hb
          exact le_trans t2.le (fpVal_le_iff.2 hb)
    rw [e]
    by_cases hlt : truncIdx F.mb num den + k < infIdx F
    · left
      rw [Nat.min_eq_left (by omega)]
      refine ⟨by rw [h.inf]; exact hlt, (hu _).2 le_rfl, fun b' _ hx => ?_⟩
      rw [val_le_iff h]
      exact (hu b').1 hx
    · right
      rw [Nat.min_eq_right (by omega)]
      refine ⟨h.inf.symm, fun b' hb' => ?_⟩
      rw [← not_le, hu]
      rw [h.inf] at hb'
      omega

theorem fpRound_le (W : BinFmt) (mode : RoundMode) (num den : Nat) : fpRound W mode num den ≤ infIdx W := by
  have key : ∀ n : Nat, (if n < infIdx W then n else match mode with
      | .nearest => infIdx W
      | .up => infIdx W
      | .down => infIdx W - 1
      | .zero => infIdx W - 1) ≤ infIdx W := by
    intro n
    by_cases hn : n < infIdx W
    · rw [if_pos hn]; exact hn.le
    · rw [if_neg hn]; cases mode <;> simp
  exact key _

theorem matchExt : FormatMatch extended80 extended := by constructor <;> decide

/-- The format in which an expression of a type with format `f` is evaluated if it is not `f` itself: `FLT_EVAL_METHOD` 1 stands for `double`, 2 for `long double`;
16-bit types are computed in `float` where there is no 16-bit arithmetic. -/
def wideFormat (m : EvalMethod) (f : Format) : Option Format :=
  match m with
  | .own => none
  | .half => none
  | .flt => if f.fracBits + 1 < 24 then some single else none
  | .dbl => if f.fracBits + 1 < 53 then some double else none
  | .ext => some extended

/-- The model's choice of the evaluation format is this one. -/
theorem wider_spec (m : EvalMethod) (T : FloatTy) :
    match widerFmt m T.fmt, wideFormat m T.spec with
    | none, none => True
    | some W, some w => FormatMatch W w ∧ ulpExp T.fmt ≤ ulpExp W
    | _, _ => False := by
  cases m <;> cases T <;> first
    | trivial
    | exact ⟨match32, by decide⟩
    | exact ⟨match64, by decide⟩
    | exact ⟨matchExt, by decide⟩

theorem fpEval_stored (c : Cfg) (T : FloatTy) (num den : Nat) (hd : 0 < den) :
    T.spec.Stored (wideFormat c.evalMethod T.spec) c.mode.direction ((num : ℚ) / den / 2 ^ ulpExp T.fmt) (fpEval c T.fmt num den) := by
  have hm := T.fmatch
  have hw := wider_spec c.evalMethod T
  unfold fpEval
  cases e1 : widerFmt c.evalMethod T.fmt with
  | none =>
    rw [e1] at hw
    cases e2 : wideFormat c.evalMethod T.spec with
    | some w => rw [e2] at hw; exact hw.elim
    | none => exact fpRound_rounds hm c.mode num den hd
  | some W =>
    rw [e1] at hw
    cases e2 : wideFormat c.evalMethod T.spec with
    | none => rw [e2] at hw; exact hw.elim
    | some w =>
      rw [e2] at hw
      obtain ⟨hW, hle⟩ : FormatMatch W w ∧ ulpExp T.fmt ≤ ulpExp W := hw
      obtain ⟨d, hd'⟩ : ∃ d, ulpExp W = ulpExp T.fmt + d := ⟨ulpExp W - ulpExp T.fmt, by omega⟩
      have hsub : ulpExp W - ulpExp T.fmt = d := by omega
      have hdp : (0 : ℚ) < 2 ^ d := by positivity
      have hr := fpRound_rounds hW c.mode (num * 2 ^ d) den hd
      have ex : ((num * 2 ^ d : Nat) : ℚ) / den / 2 ^ ulpExp W = (num : ℚ) / den / 2 ^ ulpExp T.fmt := by
        rw [hd', pow_add]; push_cast
        have : (2 : ℚ) ^ ulpExp T.fmt ≠ 0 := by positivity
        have : (den : ℚ) ≠ 0 := by exact_mod_cast hd.ne'
        field_simp
      rw [ex] at hr
      simp only [hsub]
      obtain ⟨n, hn⟩ : ∃ n, fpRound W c.mode (num * 2 ^ d) den = n := ⟨_, rfl⟩
      rw [hn] at hr ⊢
      refine ⟨n, hr, ?_⟩
      by_cases hlt : n < infIdx W
      · left
        rw [if_pos hlt]
        refine ⟨by rw [hW.inf]; exact hlt, ?_⟩
        have hr2 := fpRound_rounds hm c.mode (fpVal W.mb n) (2 ^ d) (Nat.two_pow_pos d)
        have ex2 : ((fpVal W.mb n : Nat) : ℚ) / (2 ^ d : Nat) / 2 ^ ulpExp T.fmt = w.val n := by
          rw [val_eq hW, hd', pow_add, div_div]; push_cast; rw [mul_comm]
        rw [ex2] at hr2
        exact hr2
      · right
        rw [if_neg hlt]
        have hn' : n = w.inf := by
          have hle' : n ≤ infIdx W := by
            rw [← hn]
            exact fpRound_le W c.mode _ _
          rw [hW.inf]; omega
        exact ⟨hn', hm.inf.symm⟩

/-- **C37**: `T(m)` for an unsigned integer: the integer rounded in the direction in force. -/
theorem C37_hardware_convert (mode : RoundMode) (T : FloatTy) (m : Nat) : T.spec.RoundsIn mode.direction m (fpOfNat T.fmt mode m) := by
  have h := fpRound_rounds T.fmatch mode (m * 2 ^ ulpExp T.fmt) 1 Nat.one_pos
  have e : ((m * 2 ^ ulpExp T.fmt : Nat) : ℚ) / (1 : Nat) / 2 ^ ulpExp T.fmt = m := by
    push_cast
    rw [div_one, mul_div_assoc, div_self (by positivity), mul_one]
  rw [e] at h
  exact h

/-- **C37**: `value *= p` for finite non-negative operands: the exact product, rounded to the evaluation format and then to the type. -/
theorem C37_hardware_mul (c : Cfg) (T : FloatTy) (a b : Nat) :
    T.spec.Stored (wideFormat c.evalMethod T.spec) c.mode.direction (T.spec.val a * T.spec.val b) (fpMul c T.fmt a b) := by
  have h := fpEval_stored c T (fpVal T.fmt.mb a * fpVal T.fmt.mb b) (2 ^ ulpExp T.fmt) (Nat.two_pow_pos _)
  have e : ((fpVal T.fmt.mb a * fpVal T.fmt.mb b : Nat) : ℚ) / (2 ^ ulpExp T.fmt : Nat) / 2 ^ ulpExp T.fmt = T.spec.val a * T.spec.val b := by
    rw [val_eq T.fmatch, val_eq T.fmatch]; push_cast
    have : (2 : ℚ) ^ ulpExp T.fmt ≠ 0 := by positivity
    field_simp
  rw [e] at h
  exact h

/-- **C37**: `value /= p` for finite non-negative operands, the divisor not zero. -/
theorem C37_hardware_div (c : Cfg) (T : FloatTy) (a b : Nat) (hb : 0 < T.spec.val b) :
    T.spec.Stored (wideFormat c.evalMethod T.spec) c.mode.direction (T.spec.val a / T.spec.val b) (fpDiv c T.fmt a b) := by
  have hb' : 0 < fpVal T.fmt.mb b := by
    rw [val_eq T.fmatch] at hb
    rcases Nat.eq_zero_or_pos (fpVal T.fmt.mb b) with h | h
    · rw [h] at hb; simp at hb
    · exact h
  have h := fpEval_stored c T (fpVal T.fmt.mb a * 2 ^ ulpExp T.fmt) (fpVal T.fmt.mb b) hb'
  have e : ((fpVal T.fmt.mb a * 2 ^ ulpExp T.fmt : Nat) : ℚ) / (fpVal T.fmt.mb b : Nat) / 2 ^ ulpExp T.fmt = T.spec.val a / T.spec.val b := by
    rw [val_eq T.fmatch, val_eq T.fmatch]; push_cast
    have h1 : (2 : ℚ) ^ ulpExp T.fmt ≠ 0 := by positivity
    have h2 : (fpVal T.fmt.mb b : ℚ) ≠ 0 := by exact_mod_cast hb'.ne'
    field_simp
  rw [e] at h
  exact h

/-- **C37**: a literal `1ek` in the table of exact powers: rounded to nearest by the compiler, whatever the thread does. -/
theorem C37_hardware_literal (T : FloatTy) {k v : Nat} (h : exactPowerOfTen T.fmt k = .ok v) : T.spec.RoundsTo (10 ^ k) v := by
  unfold exactPowerOfTen at h
  split at h
  · have h := Except.ok.inj h
    subst h
    have := C37_hardware_convert .nearest T (10 ^ k)
    push_cast at this
    exact this
  · exact absurd h (by intro h; cases h)

/-- The format of `a + b`, not stored. -/
theorem evalFmt_match (c : Cfg) (T : FloatTy) :
    FormatMatch (evalFmt c T.fmt) ((wideFormat c.evalMethod T.spec).getD T.spec) ∧ ulpExp T.fmt ≤ ulpExp (evalFmt c T.fmt) := by
  have hw := wider_spec c.evalMethod T
  unfold evalFmt
  cases e1 : widerFmt c.evalMethod T.fmt with
  | none =>
    rw [e1] at hw
    cases e2 : wideFormat c.evalMethod T.spec with
    | some w => rw [e2] at hw; exact hw.elim
    | none => exact ⟨T.fmatch, le_rfl⟩
  | some W =>
    rw [e1] at hw
    cases e2 : wideFormat c.evalMethod T.spec with
    | none => rw [e2] at hw; exact hw.elim
    | some w => rw [e2] at hw; exact hw

theorem eval_rounds (c : Cfg) (T : FloatTy) (num : Nat) :
    ((wideFormat c.evalMethod T.spec).getD T.spec).RoundsIn c.mode.direction ((num : ℚ) / 2 ^ ulpExp T.fmt)
      (fpRound (evalFmt c T.fmt) c.mode (num * 2 ^ (ulpExp (evalFmt c T.fmt) - ulpExp T.fmt)) 1) := by
  obtain ⟨hm, hle⟩ := evalFmt_match c T
  obtain ⟨d, hd⟩ : ∃ d, ulpExp (evalFmt c T.fmt) = ulpExp T.fmt + d := ⟨ulpExp (evalFmt c T.fmt) - ulpExp T.fmt, by omega⟩
  have hsub : ulpExp (evalFmt c T.fmt) - ulpExp T.fmt = d := by omega
  have h := fpRound_rounds hm c.mode (num * 2 ^ d) 1 Nat.one_pos
  have e : ((num * 2 ^ d : Nat) : ℚ) / (1 : Nat) / 2 ^ ulpExp (evalFmt c T.fmt) = (num : ℚ) / 2 ^ ulpExp T.fmt := by
    rw [hd, pow_add]; push_cast
    have h1 : (2 : ℚ) ^ ulpExp T.fmt ≠ 0 := by positivity
    have h2 : (2 : ℚ) ^ d ≠ 0 := by positivity
    field_simp
  rw [e] at h
  rw [hsub]
  exact h

/-- **C37**: `a + b` for finite non-negative operands, not stored: the exact sum, rounded to the evaluation format. -/
theorem C37_hardware_add (c : Cfg) (T : FloatTy) (a b : Nat) :
    ((wideFormat c.evalMethod T.spec).getD T.spec).RoundsIn c.mode.direction (T.spec.val a + T.spec.val b) (fpAdd c T.fmt a b) := by
  have h := eval_rounds c T (fpVal T.fmt.mb a + fpVal T.fmt.mb b)
  rw [val_eq T.fmatch, val_eq T.fmatch, ← add_div]
  push_cast at h
  exact h

/-- **C37**: `a - b` for finite non-negative operands with `b ≤ a`, not stored: the exact difference, rounded to the evaluation format. -/
theorem C37_hardware_sub (c : Cfg) (T : FloatTy) (a b : Nat) (hab : T.spec.val b ≤ T.spec.val a) :
    ((wideFormat c.evalMethod T.spec).getD T.spec).RoundsIn c.mode.direction (T.spec.val a - T.spec.val b) (fpSub c T.fmt a b) := by
  have h := eval_rounds c T (fpVal T.fmt.mb a - fpVal T.fmt.mb b)
  have hle : fpVal T.fmt.mb b ≤ fpVal T.fmt.mb a := fpVal_mono ((val_le_iff T.fmatch).1 hab)
  rw [val_eq T.fmatch, val_eq T.fmatch, ← sub_div]
  push_cast [Nat.cast_sub hle] at h
  exact h

/-- **C37**: what `detail::rounds_to_nearest()` finds out: it says yes exactly if the thread rounds to nearest and expressions are evaluated in a format it can
rely on (`FLT_EVAL_METHOD` 0 or 1). -/
theorem C37_rounds_to_nearest_exact (c : Cfg) : roundsToNearest c = true ↔ (c.mode.direction = .nearest ∧ c.evalMethod.is01 = true) := by
  rw [roundsToNearest_eq]
  cases c.mode <;> cases c.evalMethod <;> simp [RoundMode.direction, EvalMethod.is01]

/-! Non-vacuity: one third in the four directions (not a float, and `up` differs from the rest), and an operation whose result depends on the evaluation method:
`(2^24+1) / 2^24`-like sums are exact in `double` and not in `float`. -/
example : (fpDiv { Cfg.x64 with mode := .nearest } binary32 0x3f800000 0x40400000, fpDiv { Cfg.x64 with mode := .up } binary32 0x3f800000 0x40400000,
    fpDiv { Cfg.x64 with mode := .down } binary32 0x3f800000 0x40400000, fpDiv { Cfg.x64 with mode := .zero } binary32 0x3f800000 0x40400000) =
    (0x3eaaaaab, 0x3eaaaaab, 0x3eaaaaaa, 0x3eaaaaaa) := by decide +kernel

example : fpAdd Cfg.x64 binary32 0x4b800000 0x3f800000 = 0x4b800000 ∧
    fpAdd { Cfg.x64 with evalMethod := .dbl } binary32 0x4b800000 0x3f800000 = 0x4170000010000000 := by decide +kernel

end FastFloat
