import Verif.Proofs.Result
/-
# Independence of the result from the build configuration and the character type
-/
set_option linter.unusedSimpArgs false
namespace FastFloat
open NumSpec FloatSpec ApiSpec

theorem leadingZeroes_indep (c c' : Cfg) {w : Nat} (h0 : w ≠ 0) (h : w < 2 ^ 64) : leadingZeroes c w = leadingZeroes c' w := by
  rw [leadingZeroes_eq c w h0 h, leadingZeroes_eq c' w h0 h]

theorem table_lt : ∀ x ∈ powerOfFive128, x < 2 ^ 64 := by decide +kernel

theorem tableGetInt_lt {i : Int} {x : Nat} (h : tableGetInt powerOfFive128 i = .ok x) : x < 2 ^ 64 := by
  unfold tableGetInt tableGet at h
  split at h
  · cases h
  · split at h
    · rename_i y hy
      cases h
      exact table_lt _ (List.mem_of_getElem? hy)
    · cases h

theorem product_indep (c c' : Cfg) (b : Nat) (q : Int) {w : Nat} (hw : w < 2 ^ 64) :
    computeProductApproximation c b q w = computeProductApproximation c' b q w := by
  unfold computeProductApproximation
  simp only
  cases h1 : tableGetInt powerOfFive128 (2 * (q - smallestPowerOfFive)) with
  | error e => rfl
  | ok hi =>
    rw [ok_bind, ok_bind]
    rw [fullMultiplication_eq c w hi hw (tableGetInt_lt h1), fullMultiplication_eq c' w hi hw (tableGetInt_lt h1)]
    cases h2 : tableGetInt powerOfFive128 (2 * (q - smallestPowerOfFive) + 1) with
    | error e => rfl
    | ok lo =>
      simp only [ok_bind]
      rw [fullMultiplication_eq c w lo hw (tableGetInt_lt h2), fullMultiplication_eq c' w lo hw (tableGetInt_lt h2)]

theorem shl64_lt {w n x : Nat} (h : shl64 w n = .ok x) : x < 2 ^ 64 := by
  unfold shl64 at h
  split at h
  · cases h; exact Nat.mod_lt _ (by norm_num)
  · cases h

theorem computeFloat_indep (c c' : Cfg) (F : BinFmt) (q : Int) {w : Nat} (hw : w < 2 ^ 64) :
    computeFloat c F q w = computeFloat c' F q w := by
  unfold computeFloat
  by_cases h0 : w = 0 ∨ q < F.minPow10
  · rw [if_pos h0, if_pos h0]
  rw [if_neg h0, if_neg h0]
  by_cases h1 : q > F.maxPow10
  · rw [if_pos h1, if_pos h1]
  rw [if_neg h1, if_neg h1, leadingZeroes_indep c c' (by tauto) hw]
  refine bind_congr' fun lz => ?_
  cases h2 : shl64 w lz with
  | error e => rfl
  | ok w' => simp only [ok_bind]; rw [product_indep c c' _ _ (shl64_lt h2)]

theorem SameFpu.symm {c c' : Cfg} (h : SameFpu c c') : SameFpu c' c := ⟨h.1.symm, h.2.1.symm, h.2.2.symm⟩

theorem clinger_indep {c c' : Cfg} (h : SameFpu c c') {F : BinFmt} (G : GoodFast F) (m : Nat) (e : Int) (neg : Bool) :
    clingerFastPath c F m e neg = clingerFastPath c' F m e neg := by
  obtain ⟨hc, hm, hf⟩ := h
  have hmin : minExponentFastPath c F = minExponentFastPath c' F := by unfold minExponentFastPath; rw [hf]
  have hrn : roundsToNearest c = roundsToNearest c' := by rw [roundsToNearest_eq, roundsToNearest_eq, hf, hm]
  obtain ⟨o, e1, v1⟩ := clinger_spec c G m e neg
  obtain ⟨o', e2, v2⟩ := clinger_spec c' G m e neg
  have key : o.isSome = o'.isSome := by
    unfold clingerFastPath at e1 e2
    rw [hmin, hrn, hc, hm] at e1
    by_cases hr : minExponentFastPath c' F ≤ e ∧ e ≤ F.maxFast
    swap
    · rw [if_neg hr] at e1 e2; cases e1; cases e2; rfl
    rw [if_pos hr] at e1 e2
    by_cases hn : (!c'.constEval && roundsToNearest c') = true
    · rw [if_pos hn] at e1 e2
      by_cases hle : m ≤ maxMantissaFastPath F
      · rw [if_pos hle] at e1 e2
        have aux : ∀ (d : Cfg) (x : Option Nat), (do
            let v ← if e < 0 then do
                let t ← exactPowerOfTen F (-e).toNat
                pure (fpDiv d F (fpOfNat F c'.mode m) t)
              else do
                let t ← exactPowerOfTen F e.toNat
                pure (fpMul d F (fpOfNat F c'.mode m) t)
            (pure (some (if neg then fpNeg F v else v)) : Exec (Option Nat))) = .ok x → x.isSome = true := by
          intro d x hx
          by_cases hneg : e < 0
          · rw [if_pos hneg] at hx
            cases ht : exactPowerOfTen F (-e).toNat with
            | error er => rw [ht] at hx; cases hx
            | ok t => rw [ht] at hx; cases hx; rfl
          · rw [if_neg hneg] at hx
            cases ht : exactPowerOfTen F e.toNat with
            | error er => rw [ht] at hx; cases hx
            | ok t => rw [ht] at hx; cases hx; rfl
        rw [aux c _ e1, aux c' _ e2]
      · rw [if_neg hle] at e1 e2; cases e1; cases e2; rfl
    · rw [if_neg hn] at e1 e2
      by_cases he : e ≥ 0
      swap
      · rw [if_neg he] at e1 e2; cases e1; cases e2; rfl
      rw [if_pos he] at e1 e2
      cases hmm : maxMantissaFastPathAt F e.toNat with
      | error er => rw [hmm] at e1; cases e1
      | ok mm =>
        rw [hmm, ok_bind] at e1 e2
        by_cases hle : m ≤ mm
        · rw [if_pos hle] at e1 e2
          have aux : ∀ (d : Cfg) (b : Bool) (x : Option Nat), (if b = true then (pure (some (if neg then fpNeg F 0 else 0)) : Exec (Option Nat)) else do
              let t ← exactPowerOfTen F e.toNat
              pure (some (if neg then fpNeg F (fpMul d F (fpOfNat F c'.mode m) t) else fpMul d F (fpOfNat F c'.mode m) t))) = .ok x →
              x.isSome = true := by
            intro d b x hx
            split at hx
            · cases hx; rfl
            · cases ht : exactPowerOfTen F e.toNat with
              | error er => rw [ht] at hx; cases hx
              | ok t => rw [ht, ok_bind] at hx; cases hx; rfl
          rw [aux c _ _ e1, aux c' _ _ e2]
        · rw [if_neg hle] at e1 e2; cases e1; cases e2; rfl
  rw [e1, e2]
  congr 1
  cases o with
  | none => cases o' with
    | none => rfl
    | some v' => cases key
  | some v => cases o' with
    | none => cases key
    | some v' =>
      obtain ⟨n, a1, a2, _⟩ := v1 v rfl
      obtain ⟨n', b1, b2, _⟩ := v2 v' rfl
      rw [a2, b2, a1.unique b1]

/-- The unsigned outcome: error code and magnitude bits. -/
def numOut (c : Cfg) (ct : CharType) (T : FloatTy) (n : Numeral) : Exec (Errc × Nat) :=
  (numCore c ct T n).map (fun y => (y.1, coreBits T.fmt false y.2))

theorem numOut_indep_of {c c' : Cfg} {ct ct' : CharType} (hw : ct.WF) (hw' : ct'.WF) (T : FloatTy) {n : Numeral}
    (hd : ∀ c ∈ n.digits, IsDigit c) (hcl : ¬ 19 < (dz n.digits).length → clingerFastPath c T.fmt (dval n.digits) (satExp n.exp - ((n.frac.getD []).length : Int)) false =
      clingerFastPath c' T.fmt (dval n.digits) (satExp n.exp - ((n.frac.getD []).length : Int)) false) : numOut c ct T n = numOut c' ct' T n := by
  obtain ⟨m, hm⟩ : ∃ m : Numeral, m = { n with sign := none } := ⟨_, rfl⟩
  have hmd : m.digits = n.digits := by rw [hm]; rfl
  have hmn : m.neg = false := by rw [hm]; rfl
  have hcore : ∀ c ct, numOut c ct T n = (fromCharsAdvancedPns c ct T.fmt (pnsOf true m [])).map (fun R => (R.ec, R.value.getD 0)) := by
    intro c ct
    rw [numCore_pns, hmn, hm]
    unfold numOut
    have : numCore c ct T { n with sign := none } = numCore c ct T n := rfl
    rw [this]
    cases numCore c ct T n <;> rfl
  rw [hcore, hcore]
  congr 1
  have hlt : (pnsOf true m []).mantissa < 2 ^ 64 ∧ (19 < (dz m.digits).length → (pnsOf true m []).mantissa + 1 < 2 ^ 64) := by
    by_cases hL : 19 < (dz m.digits).length
    · have B := pnsOf_bigNum (rest := []) (n := m) (by rw [hmd]; exact hd) hL
      have := B.w2
      constructor
      · exact lt_trans this (by norm_num)
      · intro _; exact lt_of_le_of_lt this (by norm_num)
    · refine ⟨?_, fun h => absurd h hL⟩
      unfold pnsOf pnsGen
      simp only [hL, decide_false, Bool.false_and, Bool.false_eq_true, if_false]
      exact Nat.mod_lt _ (by norm_num)
  by_cases hL : 19 < (dz m.digits).length
  · have B := pnsOf_bigNum (rest := []) (n := m) (by rw [hmd]; exact hd) hL
    have htm : (pnsOf true m []).tooManyDigits = true := decide_eq_true hL
    obtain ⟨am, k, h1, h2, h3, h4, _⟩ := fromCharsAdvancedPns_big' c ct hw T.good T.slow _ B htm
    obtain ⟨am', k', g1, g2, g3, g4, _⟩ := fromCharsAdvancedPns_big' c' ct' hw' T.good T.slow _ B htm
    rw [h1, g1]
    obtain ⟨p, hp⟩ : ∃ p, pnsOf true m [] = p := ⟨_, rfl⟩
    rw [hp] at *
    rw [computeFloat_indep c c' _ _ hlt.1, computeFloat_indep c c' _ _ (hlt.2 hL)] at h4
    rcases h4 with ⟨a1, a2⟩ | ⟨a1, a2⟩
    · rcases g4 with ⟨b1, b2⟩ | ⟨b1, b2⟩
      · have := Except.ok.inj (a1.symm.trans b1); rw [this]
      · exact absurd (a1.trans a2.symm) b1
    · rcases g4 with ⟨b1, b2⟩ | ⟨b1, b2⟩
      · exact absurd (b1.trans b2.symm) a1
      · have hk := a2.unique b2
        rw [← hk] at g3
        obtain ⟨r1, r2⟩ := rangeErrc_eq T.good (m := p.mantissa) h3
        obtain ⟨s1, s2⟩ := rangeErrc_eq T.good (m := p.mantissa) g3
        have he : rangeErrc T.fmt p.mantissa am = rangeErrc T.fmt p.mantissa am' := by
          rcases r2 with r2 | r2 <;> rcases s2 with s2 | s2
          · rw [r2, s2]
          · have := s1.2 (r1.1 r2); rw [s2] at this; cases this
          · have := r1.2 (s1.1 s2); rw [r2] at this; cases this
          · rw [r2, s2]
        rw [he, toFloat_eq T.good h3, toFloat_eq T.good g3]
  · have htm : (pnsOf true m []).tooManyDigits = false := decide_eq_false hL
    have hlt19 : dval n.digits < 10 ^ 19 := by
      rw [← dval_dz]
      have := dval_lt (fun c hc => (dz_mem hd) c hc : ∀ c ∈ dz n.digits, IsDig c)
      rw [hmd] at hL
      exact lt_of_lt_of_le this (Nat.pow_le_pow_right (by norm_num) (by omega))
    have hma : (pnsOf true m []).mantissa = dval n.digits := by
      unfold pnsOf pnsGen
      rw [hmd] at hL ⊢
      simp only [hL, decide_false, Bool.false_and, Bool.false_eq_true, if_false]
      exact Nat.mod_eq_of_lt (lt_trans hlt19 (by norm_num))
    have hex : (pnsOf true m []).exponent = satExp n.exp - ((n.frac.getD []).length : Int) := by
      unfold pnsOf pnsGen
      rw [hmd] at hL ⊢
      simp only [hL, decide_false, Bool.false_and, Bool.false_eq_true, if_false]
      rw [hm]
    have hng : (pnsOf true m []).negative = false := hmn
    have hcl' : clingerFastPath c T.fmt (pnsOf true m []).mantissa (pnsOf true m []).exponent (pnsOf true m []).negative =
        clingerFastPath c' T.fmt (pnsOf true m []).mantissa (pnsOf true m []).exponent (pnsOf true m []).negative := by
      rw [hma, hex, hng]; exact hcl (by rw [← hmd]; exact hL)
    obtain ⟨p, hp⟩ : ∃ p, pnsOf true m [] = p := ⟨_, rfl⟩
    rw [hp] at htm hlt hcl' ⊢
    unfold fromCharsAdvancedPns
    rw [htm, hcl']
    simp only [Bool.not_false, if_true, Bool.false_and, Bool.false_eq_true, if_false]
    refine bind_congr' fun o => ?_
    cases o with
    | some v => rfl
    | none =>
      simp only
      obtain ⟨am, k, h1, h2, h3⟩ := computeFloat_spec c T.good p.exponent p.mantissa hlt.1
      have hp0 : ¬ am.power2 < 0 := by
        rcases h3.2 with ⟨h, _⟩ | ⟨_, h, _⟩ <;> rw [h] <;> exact not_lt.2 (Int.natCast_nonneg _)
      rw [computeFloat_indep c' c _ _ hlt.1, h1]
      simp only [ok_bind]
      show (if am.power2 < 0 then _ else _) = if am.power2 < 0 then _ else _
      rw [if_neg hp0, if_neg hp0]

theorem numOut_indep {c c' : Cfg} (h : SameFpu c c') {ct ct' : CharType} (hw : ct.WF) (hw' : ct'.WF) (T : FloatTy) {n : Numeral}
    (hd : ∀ c ∈ n.digits, IsDigit c) : numOut c ct T n = numOut c' ct' T n :=
  numOut_indep_of hw hw' T hd (fun _ => clinger_indep h T.fast _ _ _)

/-- For the types other than float16 nothing in the configuration matters. -/
theorem numOut_indep' (c c' : Cfg) {ct ct' : CharType} (hw : ct.WF) (hw' : ct'.WF) {T : FloatTy} (hT : T ≠ .float16) {n : Numeral}
    (hd : ∀ c ∈ n.digits, IsDigit c) : numOut c ct T n = numOut c' ct' T n := by
  obtain ⟨ec, v, k, h1, h2⟩ := numCore_spec c hw T hd
  obtain ⟨ec', v', k', g1, g2⟩ := numCore_spec c' hw' T hd
  unfold numOut
  rw [h1, g1]
  show Except.ok _ = Except.ok _
  have hk := (h2.rn hT).unique (g2.rn hT)
  have hb : coreBits T.fmt false v = coreBits T.fmt false v' := by rw [h2.bits, g2.bits, hk]
  have he : ec = ec' := by
    rcases h2.ecs with e1 | e1 <;> rcases g2.ecs with e2 | e2
    · rw [e1, e2]
    · exfalso
      rcases g2.ec1 e2 with ⟨a, b⟩ | a
      · have := h2.ec2 a (hk.trans b); rw [e1] at this; cases this
      · have := h2.ec3 hT (by rw [hk]; exact a); rw [e1] at this; cases this
    · exfalso
      rcases h2.ec1 e1 with ⟨a, b⟩ | a
      · have := g2.ec2 a (hk.symm.trans b); rw [e2] at this; cases this
      · have := g2.ec3 hT (by rw [← hk]; exact a); rw [e2] at this; cases this
    · rw [e1, e2]
  simp only [hb, he]

end FastFloat
