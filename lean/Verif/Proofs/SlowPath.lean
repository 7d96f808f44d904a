import Verif.Proofs.Mantissa
import Verif.Proofs.Types
/-
# The whole slow path: `from_chars_advanced` on a number with more than 19 significant digits
-/
namespace FastFloat

theorem sciLoop_step {b m : Nat} {s e : Int} {f : Nat} (h : b ≤ m) (h1 : -2 ^ 31 ≤ e + s) (h2 : e + s < 2 ^ 31) :
    sciLoop b s (f + 1) m e = sciLoop b s f (m / b) (e + s) := by
  conv_lhs => unfold sciLoop
  rw [if_pos h]
  simp only [bind, Except.bind]
  unfold chk32
  rw [if_pos ⟨h1, h2⟩]

theorem sciLoop_stop {b m : Nat} {s e : Int} {f : Nat} (h : m < b) : sciLoop b s (f + 1) m e = .ok (m, e) := by
  unfold sciLoop
  rw [if_neg (by omega)]

theorem scientificExponent_eq {w : Nat} {q : Int} (h1 : 10 ^ 18 ≤ w) (h2 : w < 10 ^ 19) (q1 : -10000 ≤ q) (q2 : q ≤ 10000) :
    scientificExponent w q = .ok (q + 18) := by
  unfold scientificExponent
  have d1 : w / 10000 / 10000 = w / 10 ^ 8 := by rw [Nat.div_div_eq_div_mul]; norm_num
  have d2 : w / 10 ^ 8 / 10000 = w / 10 ^ 12 := by rw [Nat.div_div_eq_div_mul]; norm_num
  have d3 : w / 10 ^ 12 / 10000 = w / 10 ^ 16 := by rw [Nat.div_div_eq_div_mul]; norm_num
  have d4 : w / 10 ^ 16 / 100 = w / 10 ^ 18 := by rw [Nat.div_div_eq_div_mul]; norm_num
  have a1 : 10000 ≤ w / 10000 := by rw [Nat.le_div_iff_mul_le (by norm_num)]; omega
  have a2 : 10000 ≤ w / 10 ^ 8 := by rw [Nat.le_div_iff_mul_le (by norm_num)]; omega
  have a3 : 10000 ≤ w / 10 ^ 12 := by rw [Nat.le_div_iff_mul_le (by norm_num)]; omega
  have a4 : w / 10 ^ 16 < 10000 := by rw [Nat.div_lt_iff_lt_mul (by norm_num)]; omega
  have a5 : 100 ≤ w / 10 ^ 16 := by rw [Nat.le_div_iff_mul_le (by norm_num)]; omega
  have a6 : w / 10 ^ 18 < 10 := by rw [Nat.div_lt_iff_lt_mul (by norm_num)]; omega
  have a0 : 10000 ≤ w := by omega
  have e1 : sciLoop 10000 4 65 w q = .ok (w / 10 ^ 16, q + 4 + 4 + 4 + 4) := by
    rw [sciLoop_step a0 (by omega) (by omega), sciLoop_step a1 (by omega) (by omega), d1, sciLoop_step a2 (by omega) (by omega), d2,
      sciLoop_step a3 (by omega) (by omega), d3, sciLoop_stop a4]
  have e2 : sciLoop 100 2 65 (w / 10 ^ 16) (q + 4 + 4 + 4 + 4) = .ok (w / 10 ^ 18, q + 4 + 4 + 4 + 4 + 2) := by
    rw [sciLoop_step a5 (by omega) (by omega), d4, sciLoop_stop (by omega)]
  have e3 : sciLoop 10 1 65 (w / 10 ^ 18) (q + 4 + 4 + 4 + 4 + 2) = .ok (w / 10 ^ 18, q + 4 + 4 + 4 + 4 + 2) := sciLoop_stop a6
  simp only [bind, Except.bind, e1, e2, e3, pure, Except.pure]
  congr 1; ring

theorem chk32_ok {x : Int} (h1 : -2 ^ 31 ≤ x) (h2 : x < 2 ^ 31) : chk32 x = .ok x := by unfold chk32; rw [if_pos ⟨h1, h2⟩]

/-- What the slow path needs to know about a parsed number with too many digits. -/
structure BigNum (num : ParsedNumber) (x : ℚ) (ex : Int) : Prop where
  int : ∀ d ∈ num.integer.getD [], IsDig d
  frac : ∀ d ∈ num.fraction.getD [], IsDig d
  w1 : 10 ^ 18 ≤ num.mantissa
  w2 : num.mantissa < 10 ^ 19
  x1 : (num.mantissa : ℚ) * 10 ^ num.exponent ≤ x
  x2 : x < (num.mantissa + 1 : ℚ) * 10 ^ num.exponent
  hx : x = (dval (num.integer.getD [] ++ num.fraction.getD []) : ℚ) * 10 ^ ex
  hq : num.exponent + 19 = ex + (dz (num.integer.getD [] ++ num.fraction.getD [])).length

theorem digitComp_spec (c : Cfg) (ct : CharType) (hw : ct.WF) {F : BinFmt} (G : GoodFmt F) (S : GoodSlow F) (num : ParsedNumber)
    {x : ℚ} {ex : Int} (B : BigNum num x ex) {m : Nat} {te : Int} (h : SlowCtx F num.mantissa num.exponent m te x) :
    ∃ am n, digitComp c ct F num { mantissa := m, power2 := te + invalidAmBias } = .ok am ∧ RN F.mb (x * 2 ^ ulpExp F) n ∧
      AmRep F am (min n (infIdx F)) := by
  have hqs := h.qsmall G
  have hq1 := h.q1
  have hq2 := h.q2
  have g1 := G.minPow
  have g2 := G.maxPow
  have s1 := S.md1
  have s2 := S.md2
  have s3 := S.over
  obtain ⟨big, d, e1, b1, b2, hout⟩ := parseMantissa_spec c ct hw F.maxDigits (by omega) S.capC num B.int B.frac
  have hdig : ∀ y ∈ num.integer.getD [] ++ num.fraction.getD [], IsDig y := by
    intro y hy
    rcases List.mem_append.1 hy with hy | hy
    · exact B.int y hy
    · exact B.frac y hy
  obtain ⟨D, hD⟩ : ∃ D, num.integer.getD [] ++ num.fraction.getD [] = D := ⟨_, rfl⟩
  have hx := B.hx
  have hq := B.hq
  rw [hD] at hout hdig hx hq
  have hxpos : 0 < x := by
    have hm : (0 : ℚ) < num.mantissa := by
      have : 0 < num.mantissa := lt_of_lt_of_le (by norm_num) B.w1
      exact_mod_cast this
    exact lt_of_lt_of_le (mul_pos hm (zpow_pos (by norm_num) _)) B.x1
  have hne : dz D ≠ [] := by
    intro hc
    have : dval D = 0 := by rw [← dval_dz, hc]; rfl
    rw [hx, this] at hxpos; simp at hxpos
  obtain ⟨hM, hpos, hlt⟩ := hout.mantOK (dz_mem hdig) hne (dz_idem D) (by omega) ex
  rw [dval_dz, ← hx, show ex + ((dz D).length : Int) - (d : Int) = num.exponent + 19 - d by omega] at hM
  have hd1 : d ≤ F.maxDigits + 1 := by rcases hM with hM | hM <;> omega
  unfold digitComp
  rw [show te + invalidAmBias - invalidAmBias = te by ring, chk32_ok (by omega) (by omega)]
  simp only [bind, Except.bind, scientificExponent_eq B.w1 B.w2 (show -10000 ≤ num.exponent by omega) (by omega), e1]
  rw [chk32_ok (by omega) (by omega)]
  simp only
  by_cases he : num.exponent + 18 + 1 - (d : Int) ≥ 0
  · rw [if_pos he]
    obtain ⟨k, hk⟩ := Int.eq_ofNat_of_zero_le he
    rw [hk, Int.toNat_natCast]
    rcases hM with ⟨hM1, hM2⟩ | ⟨hM1, _⟩
    · have hb : bval (limbBits c) big * 10 ^ k < 2 ^ 3200 := by
        have h1 := hlt hM1
        have h2 : bval (limbBits c) big * 10 ^ k < 10 ^ d * 10 ^ k := Nat.mul_lt_mul_of_pos_right h1 (by positivity)
        rw [← pow_add] at h2
        have h3 : 10 ^ (d + k) ≤ 10 ^ (F.maxDigits + 1) := Nat.pow_le_pow_right (by norm_num) (by omega)
        have := S.capC
        omega
      obtain ⟨am, n, p1, p2, p3⟩ := positiveDigitComp_spec c G big k b1 b2 hpos hb
      refine ⟨am, n, p1, ?_, p3⟩
      have hxx : x = ((bval (limbBits c) big * 10 ^ k : Nat) : ℚ) := by
        rw [← hM2]
        push_cast
        rw [show num.exponent + 19 - (d : Int) = (k : Int) by omega, zpow_natCast]
      rw [hxx]; exact p2
    · exfalso; omega
  · rw [if_neg he]
    obtain ⟨k, hk⟩ : ∃ k : Nat, num.exponent + 18 + 1 - (d : Int) = -(k : Int) := ⟨(-(num.exponent + 18 + 1 - (d : Int))).toNat, by omega⟩
    rw [hk]
    rw [show num.exponent + 19 - (d : Int) = -(k : Int) by omega] at hM
    exact negativeDigitComp_spec c G S h big d k b1 b2 hpos (by omega) (by omega) hM

theorem computeFloat_small (c : Cfg) (F : BinFmt) (q : Int) (w : Nat) (h : q < F.minPow10) :
    computeFloat c F q w = .ok { mantissa := 0, power2 := 0 } := by
  unfold computeFloat; simp [h]

theorem computeFloat_large (c : Cfg) (F : BinFmt) (q : Int) (w : Nat) (hw : w ≠ 0) (h0 : ¬ q < F.minPow10) (h : q > F.maxPow10) :
    computeFloat c F q w = .ok { mantissa := 0, power2 := F.infPow } := by
  unfold computeFloat; simp [h, hw, h0]

theorem infIdx_gt {F : BinFmt} (G : GoodFmt F) : 2 ^ F.mb < infIdx F := by
  have := G.infPow1
  unfold infIdx
  have hp := Nat.two_pow_pos F.mb
  nlinarith

theorem AmRep.inf {F : BinFmt} (G : GoodFmt F) {am : AdjustedMantissa} (h : AmRep F am (infIdx F)) :
    am = { mantissa := 0, power2 := F.infPow } := by
  have hp := Nat.two_pow_pos F.mb
  rcases h.2 with ⟨h1, h2⟩ | ⟨h1, _⟩
  · unfold infIdx at h1 h2
    rw [Nat.mul_div_cancel _ hp] at h1
    rw [Nat.mul_mod_left] at h2
    cases am; simp only at h1 h2; rw [h1, h2]
  · have := infIdx_gt G; omega

/-- Facts about `Rounded`. -/
theorem Rounded.low {F : BinFmt} {X : ℚ} {k : Nat} (h : Rounded F X (k + 1)) : (fpVal F.mb k : ℚ) + fpVal F.mb (k + 1) ≤ 2 * X := by
  rcases h with h | ⟨k', _, hk, he, hn⟩
  · exact (h.1 k rfl).1
  · have : k' = k := by omega
    subst this
    have e1 : fpVal F.mb k' = k' := by
      have := fpVal_lin' F.mb 0 k' (Or.inl rfl) (by rw [pow_succ]; omega); simpa using this
    have e2 : fpVal F.mb (k' + 1) = k' + 1 := by
      have := fpVal_lin' F.mb 0 (k' + 1) (Or.inl rfl) (by rw [pow_succ]; omega); simpa using this
    rw [e1, e2, he]; push_cast; linarith

theorem Rounded.high {F : BinFmt} {X : ℚ} {n : Nat} (h : Rounded F X n) : 2 * X ≤ (fpVal F.mb n : ℚ) + fpVal F.mb (n + 1) := by
  rcases h with h | ⟨k', _, hk, he, hn⟩
  · exact h.2.1
  · subst hn
    have e2 : fpVal F.mb (k' + 1) = k' + 1 := by
      have := fpVal_lin' F.mb 0 (k' + 1) (Or.inl rfl) (by rw [pow_succ]; omega); simpa using this
    have := fpVal_lt_succ F.mb (k' + 1)
    rw [e2] at this
    have : (k' + 1 : ℚ) < fpVal F.mb (k' + 1 + 1) := by exact_mod_cast this
    rw [e2, he]; push_cast; linarith

/-- Between two values that round to the same float, everything rounds to it. -/
theorem sandwich {F : BinFmt} (G : GoodFmt F) {X0 X X1 : ℚ} {n0 n1 : Nat} (hX0 : 0 ≤ X0) (h0 : Rounded F X0 n0) (h1 : Rounded F X1 n1)
    (hl : X0 ≤ X) (hh : X < X1) (hN : min n0 (infIdx F) = min n1 (infIdx F)) :
    ∃ n, ((X = X0 ∧ Rounded F X n) ∨ RN F.mb X n) ∧ min n (infIdx F) = min n0 (infIdx F) := by
  rcases eq_or_lt_of_le hl with he | hlt
  · exact ⟨n0, Or.inl ⟨he.symm, he ▸ h0⟩, rfl⟩
  have hstrict : ∀ k, n0 = k + 1 → (fpVal F.mb k : ℚ) + fpVal F.mb n0 < 2 * X := by
    intro k hk; subst hk
    have := h0.low; linarith
  by_cases hc : n0 < infIdx F
  · have hn : n1 = n0 := by omega
    subst hn
    refine ⟨n1, Or.inr ⟨fun k hk => ⟨(hstrict k hk).le, fun _ => hstrict k hk⟩, ?_⟩, rfl⟩
    have := h1.high
    exact ⟨by linarith, fun _ => by linarith⟩
  · obtain ⟨n, hn⟩ := RN_exists G.mb1 X (by linarith)
    refine ⟨n, Or.inr hn, ?_⟩
    have hi := infIdx_gt G
    have h0' : RN F.mb X0 n0 := by
      rcases h0 with h0 | ⟨k', _, hk, he, hn⟩
      · exact h0
      · omega
    have := h0'.mono hn hl
    omega

/-- On a tie of subnormals the neighbouring 19-digit significand rounds to the same float. -/
theorem tieUp_next {F : BinFmt} {X0 X1 : ℚ} {n0 n1 k : Nat} (hk : k < 2 ^ F.mb) (ht : 2 * X0 = 2 * (k : ℚ) + 1) (h0 : TieUp F X0 n0)
    (h1 : Rounded F X1 n1) (hl : X0 < X1) (hh : 2 * X1 < 2 * X0 + 1) : n0 = n1 := by
  have e0 := h0 k hk ht
  have lin : ∀ m, m ≤ 2 ^ F.mb + 1 → fpVal F.mb m = m := by
    intro m hm
    have := fpVal_lin' F.mb 0 m (Or.inl rfl) (by rw [pow_succ]; have := Nat.two_pow_pos F.mb; omega); simpa using this
  have hlow : k + 1 ≤ n1 := by
    by_contra hc
    have g1 := h1.high
    have g2 : fpVal F.mb n1 = n1 := lin n1 (by omega)
    have g3 : fpVal F.mb (n1 + 1) = n1 + 1 := lin (n1 + 1) (by omega)
    rw [g2, g3] at g1
    have g4 : (n1 : ℚ) ≤ k := by exact_mod_cast (show n1 ≤ k by omega)
    push_cast at g1
    linarith
  have hhigh : n1 ≤ k + 1 := by
    by_contra hc
    obtain ⟨m, rfl⟩ := Nat.exists_eq_succ_of_ne_zero (show n1 ≠ 0 by omega)
    have g1 := h1.low
    have g2 : fpVal F.mb (k + 1) ≤ fpVal F.mb m := fpVal_mono (by omega)
    have g3 : fpVal F.mb m < fpVal F.mb (m + 1) := fpVal_lt_succ F.mb m
    rw [lin (k + 1) (by omega)] at g2
    have g4 : ((k + 1 : Nat) : ℚ) ≤ fpVal F.mb m := by exact_mod_cast g2
    have g5 : ((k + 2 : Nat) : ℚ) ≤ fpVal F.mb (m + 1) := by exact_mod_cast (show k + 2 ≤ fpVal F.mb (m + 1) by omega)
    push_cast at g4 g5
    linarith
  omega

/-- Value-level theorem for `from_chars_advanced(parsed_number_string_t&, T&)` when there are too many digits. -/
theorem fromCharsAdvancedPns_big' (c : Cfg) (ct : CharType) (hw : ct.WF) {F : BinFmt} (G : GoodFmt F) (S : GoodSlow F) (num : ParsedNumber)
    {x : ℚ} {ex : Int} (B : BigNum num x ex) (htm : num.tooManyDigits = true) :
    ∃ am n, fromCharsAdvancedPns c ct F num =
        .ok { ptr := num.lastmatch, ec := rangeErrc F num.mantissa am, value := some (toFloat F num.negative am) } ∧
      ((x = num.mantissa * 10 ^ num.exponent ∧ Rounded F (x * 2 ^ ulpExp F) n) ∨ RN F.mb (x * 2 ^ ulpExp F) n) ∧
      AmRep F am (min n (infIdx F)) ∧
      ((computeFloat c F num.exponent num.mantissa = .ok am ∧ computeFloat c F num.exponent (num.mantissa + 1) = .ok am) ∨
       (computeFloat c F num.exponent num.mantissa ≠ computeFloat c F num.exponent (num.mantissa + 1) ∧ RN F.mb (x * 2 ^ ulpExp F) n)) ∧
      (x = num.mantissa * 10 ^ num.exponent → TieUp F (x * 2 ^ ulpExp F) n) := by
  have hw19 : num.mantissa < 2 ^ 64 := lt_trans B.w2 (by norm_num)
  have hw19' : num.mantissa + 1 < 2 ^ 64 := lt_of_le_of_lt B.w2 (by norm_num)
  have hw0 : num.mantissa ≠ 0 := by have := B.w1; omega
  obtain ⟨am0, n0, e0, r0, a0, u0⟩ := computeFloat_spec' c G num.exponent num.mantissa hw19
  obtain ⟨am1, n1, e1, r1, a1⟩ := computeFloat_spec c G num.exponent (num.mantissa + 1) hw19'
  have hp0 : am0.power2 ≥ 0 := by
    rcases a0.2 with ⟨h, _⟩ | ⟨_, h, _⟩ <;> rw [h]
    · exact Int.natCast_nonneg _
    · norm_num
  have hu : (0 : ℚ) < 2 ^ ulpExp F := by positivity
  have hX0 : scaled F num.mantissa num.exponent ≤ x * 2 ^ ulpExp F := mul_le_mul_of_nonneg_right B.x1 hu.le
  have hX1 : x * 2 ^ ulpExp F < scaled F (num.mantissa + 1) num.exponent := by
    unfold scaled; push_cast
    exact mul_lt_mul_of_pos_right B.x2 hu
  have hX0n := scaled_nonneg F num.mantissa num.exponent
  have hnext : x = num.mantissa * 10 ^ num.exponent → ∀ k : Nat, k < 2 ^ F.mb → 2 * (x * 2 ^ ulpExp F) = 2 * (k : ℚ) + 1 → n0 = n1 ∧ n0 = k + 1 := by
    intro hx k hk ht
    have hX : scaled F num.mantissa num.exponent = x * 2 ^ ulpExp F := by unfold scaled; rw [hx]
    refine ⟨tieUp_next hk (by rw [hX]; exact ht) u0 r1 (by rw [hX]; exact hX1) ?_, u0 k hk (by rw [hX]; exact ht)⟩
    have hmbq : (2 : ℚ) ^ F.mb ≤ 2 ^ 52 := pow_le_pow_right₀ (by norm_num) G.mb52
    have hkq : (k : ℚ) + 1 ≤ 2 ^ F.mb := by exact_mod_cast hk
    have hwq : (10 : ℚ) ^ 18 ≤ num.mantissa := by exact_mod_cast B.w1
    have hs : scaled F (num.mantissa + 1) num.exponent = scaled F num.mantissa num.exponent + 10 ^ num.exponent * 2 ^ ulpExp F := by
      unfold scaled; push_cast; ring
    have hsm : scaled F num.mantissa num.exponent = num.mantissa * (10 ^ num.exponent * 2 ^ ulpExp F) := by unfold scaled; ring
    obtain ⟨δ, hδ⟩ : ∃ δ : ℚ, (10 : ℚ) ^ num.exponent * 2 ^ ulpExp F = δ := ⟨_, rfl⟩
    have hδ0 : 0 < δ := by rw [← hδ]; positivity
    rw [hs, hδ]
    rw [hδ] at hsm
    have h1 : (10 : ℚ) ^ 18 * δ ≤ scaled F num.mantissa num.exponent := by rw [hsm]; gcongr
    have h2 : scaled F num.mantissa num.exponent < 2 ^ 52 := by rw [hX]; linarith
    norm_num at h1 h2
    linarith
  by_cases hne : am0 = am1
  · subst hne
    obtain ⟨n, hn, hmin⟩ := sandwich G hX0n r0 r1 hX0 hX1 (a0.unique a1)
    refine ⟨am0, n, ?_, ?_, by rw [hmin]; exact a0, Or.inl ⟨e0, e1⟩, ?_⟩
    rotate_right
    · intro hx k hk ht
      have h1 := (hnext hx k hk ht).2
      have hi := infIdx_gt G
      omega
    · unfold fromCharsAdvancedPns
      simp only [bind, Except.bind, htm, Bool.not_true, Bool.false_eq_true, if_false, pure, Except.pure, e0, Bool.true_and,
        decide_eq_true_eq]
      rw [if_pos hp0, Nat.mod_eq_of_lt hw19', e1]
      simp only [ne_eq, not_true_eq_false, if_false]
      rw [if_neg (by omega)]
    · rcases hn with ⟨h1, h2⟩ | h
      · refine Or.inl ⟨?_, h2⟩
        unfold scaled at h1
        exact mul_right_cancel₀ hu.ne' h1
      · exact Or.inr h
  · have hq1 : F.minPow10 ≤ num.exponent := by
      by_contra hc
      rw [computeFloat_small c F _ _ (by omega)] at e0 e1
      exact hne (by rw [← Except.ok.inj e0, ← Except.ok.inj e1])
    have hq2 : num.exponent ≤ F.maxPow10 := by
      by_contra hc
      rw [computeFloat_large c F _ _ (by omega) (by omega) (by omega)] at e0 e1
      exact hne (by rw [← Except.ok.inj e0, ← Except.ok.inj e1])
    have hn01 : n0 < infIdx F := by
      by_contra hc
      have hi := infIdx_gt G
      have h0' : RN F.mb (scaled F num.mantissa num.exponent) n0 := by
        rcases r0 with h0 | ⟨k', _, hk, he, hn⟩
        · exact h0
        · omega
      obtain ⟨n, hn⟩ := RN_exists G.mb1 (scaled F (num.mantissa + 1) num.exponent) (scaled_nonneg _ _ _)
      have hmono := h0'.mono hn (hX0.trans hX1.le)
      have hn1 : infIdx F ≤ n1 := by
        rcases r1 with h1 | ⟨k', hpar, hk, he, hnn⟩
        · rw [h1.unique hn]; omega
        · exfalso
          have hkn := hn.low (show k' + 1 < n by omega)
          have h3 := fpVal_lt_succ F.mb k'
          have e3 : fpVal F.mb (k' + 1) = k' + 1 := by
            have := fpVal_lin' F.mb 0 (k' + 1) (Or.inl rfl) (by rw [pow_succ]; omega); simpa using this
          have h4 : (fpVal F.mb (k' + 1) : ℚ) ≤ fpVal F.mb n := by exact_mod_cast fpVal_mono (by omega)
          rw [he, e3] at hkn
          rw [e3] at h4
          push_cast at hkn h4
          linarith [hkn.1]
      rw [Nat.min_eq_right (by omega)] at a0 a1
      exact hne (by rw [a0.inf G, a1.inf G])
    obtain ⟨m, te, ee, m1, m2, t1, t2, lo, hi⟩ := computeError_spec c G num.exponent num.mantissa hw0 hw19 hq1 hq2
    obtain ⟨b1, b2, _, _⟩ := rShift_bounds G (te := te) m1 m2
    have fin : rJ F te * 2 ^ F.mb + m / 2 ^ rShift F te < infIdx F := by
      refine lt_of_le_of_lt ?_ hn01
      by_contra hc
      have hv := fpVal_lin F.mb (rJ F te) (m / 2 ^ rShift F te) b1 b2
      have h1 : fpVal F.mb (n0 + 1) ≤ fpVal F.mb (rJ F te * 2 ^ F.mb + m / 2 ^ rShift F te) := fpVal_mono (by omega)
      have h2 : (fpVal F.mb (n0 + 1) : ℚ) ≤ scaled F num.mantissa num.exponent := by
        refine le_trans ?_ lo
        rw [hv] at h1
        exact_mod_cast h1
      have h3 := r0.high
      have h4 : (fpVal F.mb n0 : ℚ) < fpVal F.mb (n0 + 1) := by exact_mod_cast fpVal_lt_succ F.mb n0
      linarith
    obtain ⟨am, n, d1, d2, d3⟩ := digitComp_spec c ct hw G S num B
      (⟨B.w1, B.w2, hq1, hq2, m1, m2, t1, t2, lo, hi, B.x1, B.x2, fin⟩ : SlowCtx F num.mantissa num.exponent m te x)
    refine ⟨am, n, ?_, Or.inr d2, d3, Or.inr ⟨by rw [e0, e1]; exact fun h => hne (Except.ok.inj h), d2⟩, ?_⟩
    rotate_right
    · intro hx k hk ht
      obtain ⟨h1, h2⟩ := hnext hx k hk ht
      have hi := infIdx_gt G
      by_cases hc : k + 1 = 2 ^ F.mb
      · -- the upper neighbour is the smallest normal and even
        have lin : ∀ m, m ≤ 2 ^ F.mb + 1 → fpVal F.mb m = m := by
          intro m hm
          have := fpVal_lin' F.mb 0 m (Or.inl rfl) (by rw [pow_succ]; have := Nat.two_pow_pos F.mb; omega); simpa using this
        have heven : (k + 1) % 2 = 0 := by
          rw [hc]
          obtain ⟨m, hm⟩ := Nat.exists_eq_succ_of_ne_zero (show F.mb ≠ 0 by have := G.mb1; omega)
          rw [hm, pow_succ]; omega
        have hr : RN F.mb (x * 2 ^ ulpExp F) (k + 1) := by
          refine ⟨fun j hj => ?_, ?_, fun ho => by omega⟩
          · have : j = k := by omega
            subst this
            rw [lin j (by omega), lin (j + 1) (by omega), ht]
            refine ⟨by push_cast; linarith, fun ho => by omega⟩
          · rw [lin (k + 1) (by omega), lin (k + 1 + 1) (by omega), ht]
            push_cast; linarith
        exact d2.unique hr
      · exfalso
        have hm0 : min n0 (infIdx F) = k + 1 := by omega
        have hm1 : min n1 (infIdx F) = k + 1 := by omega
        rw [hm0] at a0
        rw [hm1] at a1
        rcases a0.2 with ⟨p1, p2⟩ | ⟨p1, _, _⟩
        · rcases a1.2 with ⟨q1, q2⟩ | ⟨q1, _, _⟩
          · apply hne
            cases am0; cases am1
            simp only at p1 p2 q1 q2
            rw [p1, p2, q1, q2]
          · exact hc q1
        · exact hc p1
    unfold fromCharsAdvancedPns
    simp only [bind, Except.bind, htm, Bool.not_true, Bool.false_eq_true, if_false, pure, Except.pure, e0, Bool.true_and,
      decide_eq_true_eq]
    rw [if_pos hp0, Nat.mod_eq_of_lt hw19', e1]
    simp only
    rw [if_pos hne, ee]
    simp only
    rw [if_pos (by unfold invalidAmBias; omega), d1]

theorem fromCharsAdvancedPns_big (c : Cfg) (ct : CharType) (hw : ct.WF) {F : BinFmt} (G : GoodFmt F) (S : GoodSlow F) (num : ParsedNumber)
    {x : ℚ} {ex : Int} (B : BigNum num x ex) (htm : num.tooManyDigits = true) :
    ∃ am n, fromCharsAdvancedPns c ct F num =
        .ok { ptr := num.lastmatch, ec := rangeErrc F num.mantissa am, value := some (toFloat F num.negative am) } ∧
      ((x = num.mantissa * 10 ^ num.exponent ∧ Rounded F (x * 2 ^ ulpExp F) n) ∨ RN F.mb (x * 2 ^ ulpExp F) n) ∧
      AmRep F am (min n (infIdx F)) := by
  obtain ⟨am, n, h1, h2, h3, _⟩ := fromCharsAdvancedPns_big' c ct hw G S num B htm
  exact ⟨am, n, h1, h2, h3⟩

end FastFloat
