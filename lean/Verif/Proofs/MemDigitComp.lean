import Verif.Proofs.StackVec
import Verif.Model.MemDigitComp
/-
# The memory-level slow path computes what the list-level slow path computes
-/
set_option linter.unusedSimpArgs false
set_option autoImplicit false
namespace FastFloat
namespace Mem

theorem lift_ok {α : Type} {x : Exec α} {a : α} (h : x = .ok a) : lift x = .ok a := by rw [h]; rfl

/-- Taking a list-level `do` that succeeded apart. -/
theorem bind_ok {ε α β : Type} {x : Except ε α} {f : α → Except ε β} {b : β} (h : (x >>= f) = .ok b) : ∃ a, x = .ok a ∧ f a = .ok b := by
  cases x with
  | error e => cases h
  | ok a => exact ⟨a, rfl, h⟩

/-- The same for `let a ← if p then x else pure y` (the form in which `do` leaves it). -/
theorem jp_ok {ε α β : Type} {p : Prop} [Decidable p] {x y : Except ε α} {f : α → Except ε β} {b : β} (h : (if p then x >>= f else y >>= f) = .ok b) :
    ∃ a, (if p then x else y) = .ok a ∧ f a = .ok b := by
  split at h
  · rw [if_pos ‹_›]; exact bind_ok h
  · rw [if_neg ‹_›]; exact bind_ok h

theorem jp_eq {ε α β : Type} {p : Prop} [Decidable p] {x y : Except ε α} {f : α → Except ε β} {a : α} (h : (if p then x else y) = .ok a) :
    (if p then x >>= f else y >>= f) = f a := by
  split at h
  · rw [if_pos ‹_›, h]; rfl
  · rw [if_neg ‹_›, h]; rfl

/-- An `if` whose branches agree. -/
theorem ite_ok {α : Type} {p : Prop} [Decidable p] {x : Exec α} {y a : α} {m : M α} (h : (if p then x else pure y) = .ok a) (hm : x = .ok a → m = .ok a) :
    (if p then m else pure y : M α) = .ok a := by
  split at h
  · rw [if_pos ‹_›]; exact hm h
  · rw [if_neg ‹_›]; exact congrArg Except.ok (Except.ok.inj h)

theorem Refines.ok {cap : Nat} {m : M (Bool × StackVec)} {op : Exec Limbs} {r : Limbs} (h : Refines cap m op) (e : op = .ok r) :
    ∃ v', m = .ok (true, v') ∧ Holds cap v' r := by
  obtain ⟨v', (⟨h1, r', h2, h3⟩ | ⟨_, h2, _⟩)⟩ := h
  · rw [e] at h2
    have := Except.ok.inj h2
    subst this
    exact ⟨v', h1, h3⟩
  · rw [e] at h2; cases h2

variable {c : Cfg} {cap : Nat}

theorem addNative_ok (hcap : cap = bigintLimbs c) (hc : cap < 2 ^ 16) {v : StackVec} {l r : Limbs} (h : Holds cap v l) {power value : Nat}
    (e : FastFloat.addNative c l power value = .ok r) : ∃ v', addNative c v power value = .ok v' ∧ Holds cap v' r := by
  unfold FastFloat.addNative at e
  obtain ⟨b, e1, e2⟩ := bind_ok e
  obtain ⟨v1, f1, h1⟩ := (smallMul_refines c hcap hc h power).ok e1
  obtain ⟨v2, f2, h2⟩ := (smallAddFrom_refines c hcap hc h1 value 0 (Nat.zero_le _)).ok e2
  refine ⟨v2, ?_, h2⟩
  unfold addNative
  simp only [bind, Except.bind, f1, f2, pure, Except.pure]

theorem roundUpBigint_ok (hcap : cap = bigintLimbs c) (hc : cap < 2 ^ 16) {v : StackVec} {l : Limbs} {r : Limbs × Nat} (h : Holds cap v l) {count : Nat}
    (e : FastFloat.roundUpBigint c l count = .ok r) : ∃ v', roundUpBigint c v count = .ok (v', r.2) ∧ Holds cap v' r.1 := by
  unfold FastFloat.roundUpBigint at e
  obtain ⟨b, e1, e2⟩ := bind_ok e
  have := Except.ok.inj e2
  subst this
  obtain ⟨v1, f1, h1⟩ := addNative_ok hcap hc h e1
  refine ⟨v1, ?_, h1⟩
  unfold roundUpBigint
  simp only [bind, Except.bind, f1, pure, Except.pure]

/-- What a run of the outer loop is at the memory level, given what it is at the list level. -/
def PmOut (cap : Nat) (m : M (Sum (StackVec × Nat) (StackVec × PMState))) : Sum (Limbs × Nat) (Limbs × Nat) → Prop
  | .inl (l, d) => ∃ v, m = .ok (.inl (v, d)) ∧ Holds cap v l
  | .inr (l, d) => ∃ v p, m = .ok (.inr (v, ⟨p, 0, 0, d⟩)) ∧ Holds cap v l

theorem pmLoop_ok (hcap : cap = bigintLimbs c) (hc : cap < 2 ^ 16) (ct : CharType) (maxDigits : Nat) (isTrunc : List Nat → Exec Bool) :
    ∀ (fuel : Nat) (v : StackVec) (l : Limbs) (p : List Nat) (digits : Nat) (r : Sum (Limbs × Nat) (Limbs × Nat)), Holds cap v l →
      FastFloat.pmLoop c ct maxDigits isTrunc fuel l p digits = .ok r → PmOut cap (pmLoop c ct maxDigits isTrunc fuel v ⟨p, 0, 0, digits⟩) r := by
  intro fuel
  induction fuel with
  | zero => intro v l p digits r _ e; cases e
  | succ fuel ih =>
    intro v l p digits r h e
    unfold FastFloat.pmLoop at e
    by_cases hp : p.length = 0
    · rw [if_pos hp] at e
      have := Except.ok.inj e
      subst this
      refine ⟨v, p, ?_, h⟩
      unfold pmLoop
      exact if_pos hp
    · rw [if_neg hp] at e
      obtain ⟨s1, e1, e⟩ := bind_ok e
      obtain ⟨s2, e2, e⟩ := bind_ok e
      obtain ⟨pw, e3, e⟩ := bind_ok e
      obtain ⟨b, e4, e⟩ := bind_ok e
      obtain ⟨v1, f4, h1⟩ := addNative_ok hcap hc h e4
      have key : pmLoop c ct maxDigits isTrunc (fuel + 1) v ⟨p, 0, 0, digits⟩ =
          (if s2.digits = maxDigits then do
            let t ← lift (isTrunc s2.p)
            if t then do
              let r ← roundUpBigint c v1 s2.digits
              pure (.inl r)
            else pure (.inl (v1, s2.digits))
          else pmLoop c ct maxDigits isTrunc fuel v1 { s2 with counter := 0, value := 0 }) := by
        rw [pmLoop]
        rw [if_neg (show ¬ (PMState.mk p 0 0 digits).p.length = 0 from hp)]
        simp only [lift_ok e1, lift_ok e2, lift_ok e3, f4, bind, Except.bind]
      rw [key]
      by_cases hd : s2.digits = maxDigits
      · rw [if_pos hd] at e ⊢
        obtain ⟨t, e5, e⟩ := bind_ok e
        simp only [lift_ok e5, bind, Except.bind]
        by_cases ht : t = true
        · rw [if_pos ht] at e ⊢
          obtain ⟨r', e6, e⟩ := bind_ok e
          have := Except.ok.inj e
          subst this
          obtain ⟨v2, f6, h2⟩ := roundUpBigint_ok hcap hc h1 e6
          rw [f6]
          exact ⟨v2, rfl, h2⟩
        · rw [if_neg ht] at e ⊢
          have := Except.ok.inj e
          subst this
          exact ⟨v1, rfl, h1⟩
      · rw [if_neg hd] at e ⊢
        exact ih v1 b s2.p s2.digits r h1 e

theorem parseMantissa_ok (hcap : cap = bigintLimbs c) (hc : cap < 2 ^ 16) (ct : CharType) (num : ParsedNumber) (maxDigits : Nat) {r : Limbs × Nat}
    (e : FastFloat.parseMantissa c ct num maxDigits = .ok r) :
    ∃ v, parseMantissa c ct (StackVec.fresh cap) num maxDigits = .ok (v, r.2) ∧ Holds cap v r.1 := by
  unfold FastFloat.parseMantissa at e
  obtain ⟨p, e1, e⟩ := bind_ok e
  obtain ⟨q, e2, e⟩ := bind_ok e
  have h2 := pmLoop_ok hcap hc ct maxDigits _ _ _ _ _ _ _ (fresh_holds cap) e2
  unfold parseMantissa
  rw [lift_ok e1]
  simp only [bind, Except.bind]
  cases q with
  | inl x =>
    obtain ⟨l, d⟩ := x
    obtain ⟨v, f, h⟩ := h2
    have := Except.ok.inj e
    subst this
    refine ⟨v, ?_, h⟩
    simp only [f, pure, Except.pure]
  | inr x =>
    obtain ⟨l, d⟩ := x
    obtain ⟨v, p', f, h⟩ := h2
    simp only [f]
    cases hf : num.fraction with
    | none =>
      rw [hf] at e
      have := Except.ok.inj e
      subst this
      exact ⟨v, rfl, h⟩
    | some fr =>
      rw [hf] at e
      obtain ⟨p2, e3, e⟩ := jp_ok e
      obtain ⟨q2, e4, e⟩ := bind_ok e
      have e3' : (if d = 0 then lift (skipZeros c ct fr) else pure fr : M (List Nat)) = .ok p2 := ite_ok e3 lift_ok
      have h4 := pmLoop_ok hcap hc ct maxDigits _ _ _ _ _ _ _ h e4
      refine (exists_congr fun v => and_congr_left' (Eq.congr_left (jp_eq e3'))).2 ?_
      cases q2 with
      | inl x =>
        obtain ⟨l2, d2⟩ := x
        obtain ⟨v2, f2, h5⟩ := h4
        have := Except.ok.inj e
        subst this
        refine ⟨v2, ?_, h5⟩
        simp only [f2, pure, Except.pure]
      | inr x =>
        obtain ⟨l2, d2⟩ := x
        obtain ⟨v2, p3, f2, h5⟩ := h4
        have := Except.ok.inj e
        subst this
        refine ⟨v2, ?_, h5⟩
        simp only [f2]; rfl

theorem positiveDigitComp_ok (hcap : cap = bigintLimbs c) (hc : cap < 2 ^ 16) (F : BinFmt) {v : StackVec} {l : Limbs} (h : Holds cap v l) {exponent : Nat}
    {r : AdjustedMantissa} (e : FastFloat.positiveDigitComp c F l exponent = .ok r) : positiveDigitComp c F v exponent = .ok r := by
  unfold FastFloat.positiveDigitComp at e
  obtain ⟨b, e1, e⟩ := bind_ok e
  obtain ⟨hh, e2, e⟩ := bind_ok e
  obtain ⟨bl, e3, e⟩ := bind_ok e
  obtain ⟨v1, f1, h1⟩ := (pow10_refines c hcap hc h exponent).ok e1
  unfold positiveDigitComp
  simp only [bind, Except.bind, f1, hi64_eq c h1, bitLength_eq c h1, lift_ok e2, lift_ok e3, lift_ok e]

theorem negativeDigitComp_ok (hcap : cap = bigintLimbs c) (hc : cap < 2 ^ 16) (h2c : 2 ≤ cap) (F : BinFmt) {v : StackVec} {l : Limbs} (h : Holds cap v l)
    {am : AdjustedMantissa} {exponent : Int} {r : AdjustedMantissa} (e : FastFloat.negativeDigitComp c F l am exponent = .ok r) :
    negativeDigitComp c F v am exponent = .ok r := by
  unfold FastFloat.negativeDigitComp at e
  obtain ⟨amB, e1, e⟩ := bind_ok e
  obtain ⟨p2, e2, e⟩ := bind_ok e
  obtain ⟨t1, e3, e⟩ := jp_ok e
  obtain ⟨t2, e4, e⟩ := jp_ok e
  obtain ⟨rd, e5, e⟩ := jp_ok e
  obtain ⟨w0, f0, h0⟩ := bigOfU64_ok c hcap hc h2c (toExtendedHalfway F (toFloat F false amB)).mantissa
  have g3 : ∃ x, (if (-exponent).toNat ≠ 0 then pow5 c w0 (-exponent).toNat else pure (true, w0) : M _) = .ok x ∧ Holds cap x.2 t1 := by
    split at e3
    · rw [if_pos ‹_›]
      obtain ⟨w, f, hw⟩ := (pow5_refines c hcap hc h0 _).ok e3
      exact ⟨_, f, hw⟩
    · rw [if_neg ‹_›]
      have := Except.ok.inj e3
      subst this
      exact ⟨_, rfl, h0⟩
  obtain ⟨x3, f3, h3⟩ := g3
  have g4 : ∃ x, (if p2 > 0 then shl c x3.2 p2.toNat else pure (true, x3.2) : M _) = .ok x ∧ Holds cap x.2 t2 := by
    split at e4
    · rw [if_pos ‹_›]
      obtain ⟨w, f, hw⟩ := (shl_refines c hcap hc h3 _).ok e4
      exact ⟨_, f, hw⟩
    · rw [if_neg ‹_›]
      have := Except.ok.inj e4
      subst this
      exact ⟨_, rfl, h3⟩
  obtain ⟨x4, f4, h4⟩ := g4
  have g5 : ∃ x, (if p2 < 0 then shl c v (-p2).toNat else pure (true, v) : M _) = .ok x ∧ Holds cap x.2 rd := by
    split at e5
    · rw [if_pos ‹_›]
      obtain ⟨w, f, hw⟩ := (shl_refines c hcap hc h _).ok e5
      exact ⟨_, f, hw⟩
    · rw [if_neg ‹_›]
      have := Except.ok.inj e5
      subst this
      exact ⟨_, rfl, h⟩
  obtain ⟨x5, f5, h5⟩ := g5
  unfold negativeDigitComp
  rw [lift_ok e1, ex_bind]
  refine (congrArg (· >>= _) f0).trans ?_
  rw [ex_bind, lift_ok e2, ex_bind]
  refine (jp_eq f3).trans ?_
  refine (jp_eq f4).trans ?_
  refine (jp_eq f5).trans ?_
  refine (congrArg (· >>= _) (compare_eq h5 h4)).trans ?_
  exact lift_ok e

theorem cap_facts (c : Cfg) : bigintLimbs c < 2 ^ 16 ∧ 2 ≤ bigintLimbs c := by
  unfold bigintLimbs limbBits
  cases c.limb64 <;> decide

theorem digitComp_ok (c : Cfg) (ct : CharType) (F : BinFmt) (num : ParsedNumber) (am : AdjustedMantissa) {r : AdjustedMantissa}
    (e : FastFloat.digitComp c ct F num am = .ok r) : digitComp c ct F num am = .ok r := by
  obtain ⟨hc, h2c⟩ := cap_facts c
  unfold FastFloat.digitComp at e
  obtain ⟨e32, e1, e⟩ := bind_ok e
  obtain ⟨se, e2, e⟩ := bind_ok e
  obtain ⟨x, e3, e⟩ := bind_ok e
  obtain ⟨ex, e4, e⟩ := bind_ok e
  obtain ⟨v, f3, h⟩ := parseMantissa_ok rfl hc ct num F.maxDigits e3
  unfold digitComp
  simp only [bind, Except.bind, lift_ok e1, lift_ok e2, f3, lift_ok e4]
  split at e
  · rw [if_pos ‹_›]; exact positiveDigitComp_ok rfl hc F h e
  · rw [if_neg ‹_›]; exact negativeDigitComp_ok rfl hc h2c F h e

theorem fromCharsAdvancedPns_ok (c : Cfg) (ct : CharType) (F : BinFmt) (pns : ParsedNumber) {r : FloatResult}
    (e : FastFloat.fromCharsAdvancedPns c ct F pns = .ok r) : fromCharsAdvancedPns c ct F pns = .ok r := by
  unfold FastFloat.fromCharsAdvancedPns at e
  obtain ⟨fast, e1, e⟩ := jp_ok e
  unfold fromCharsAdvancedPns
  refine (jp_eq (ite_ok e1 lift_ok)).trans ?_
  cases fast with
  | some v => exact congrArg Except.ok (Except.ok.inj e)
  | none =>
    obtain ⟨am, e2, e⟩ := bind_ok e
    refine (congrArg (· >>= _) (lift_ok e2)).trans ?_
    refine (ex_bind _ _).trans ?_
    have fin : ∀ (am2 : AdjustedMantissa) {r : FloatResult}, (if am2.power2 < 0 then
          FastFloat.digitComp c ct F pns am2 >>= fun am => pure (FloatResult.mk pns.lastmatch (rangeErrc F pns.mantissa am) (some (toFloat F pns.negative am)))
        else pure am2 >>= fun am => pure (FloatResult.mk pns.lastmatch (rangeErrc F pns.mantissa am) (some (toFloat F pns.negative am)))) = .ok r →
      (if am2.power2 < 0 then
          digitComp c ct F pns am2 >>= fun am => pure (FloatResult.mk pns.lastmatch (rangeErrc F pns.mantissa am) (some (toFloat F pns.negative am)))
        else pure am2 >>= fun am => pure (FloatResult.mk pns.lastmatch (rangeErrc F pns.mantissa am) (some (toFloat F pns.negative am)))) = .ok r := by
      intro am2 r e
      obtain ⟨am3, e3, e⟩ := jp_ok e
      refine (jp_eq (ite_ok e3 (digitComp_ok c ct F pns am2))).trans ?_
      exact congrArg Except.ok (Except.ok.inj e)
    by_cases hm : (pns.tooManyDigits && decide (am.power2 ≥ 0)) = true
    · refine (if_pos hm).trans ?_
      replace e := (if_pos hm).symm.trans e
      obtain ⟨am1, e3, e⟩ := bind_ok e
      refine (congrArg (· >>= _) (lift_ok e3)).trans ?_
      refine (ex_bind _ _).trans ?_
      obtain ⟨am2, e4, e⟩ := jp_ok e
      refine (jp_eq (ite_ok e4 lift_ok)).trans ?_
      exact fin am2 e
    · refine (if_neg hm).trans ?_
      replace e := (if_neg hm).symm.trans e
      exact fin am e

theorem parseNumberSlowPath_ok (c : Cfg) (ct : CharType) (F : BinFmt) (first : List Nat) (opt : Options) (bjf : Bool) {r : FloatResult}
    (e : FastFloat.parseNumberSlowPath c ct F first opt bjf = .ok r) : parseNumberSlowPath c ct F first opt bjf = .ok r := by
  unfold FastFloat.parseNumberSlowPath at e
  obtain ⟨pns, e1, e⟩ := bind_ok e
  unfold parseNumberSlowPath
  simp only [bind, Except.bind, lift_ok e1]
  exact fromCharsAdvancedPns_ok c ct F pns e

theorem fromCharsFloatParsed_ok (c : Cfg) (ct : CharType) (F : BinFmt) (first : List Nat) (opt : Options) (fmt : Fmt) (bjf : Bool) (pns : ParsedNumber)
    {r : FloatResult} (e : FastFloat.fromCharsFloatParsed c ct F first opt fmt bjf pns = .ok r) :
    fromCharsFloatParsed c ct F first opt fmt bjf pns = .ok r := by
  unfold FastFloat.fromCharsFloatParsed at e
  unfold fromCharsFloatParsed
  split at e
  · rw [if_pos ‹_›]
    split at e
    · rw [if_pos ‹_›]; exact congrArg Except.ok (Except.ok.inj e)
    · rw [if_neg ‹_›]; exact lift_ok e
  · rw [if_neg ‹_›]
    split at e
    · rw [if_pos ‹_›]; exact parseNumberSlowPath_ok c ct F first opt bjf e
    · rw [if_neg ‹_›]
      obtain ⟨fast, e1, e⟩ := bind_ok e
      simp only [bind, Except.bind, lift_ok e1]
      cases fast with
      | some v => exact congrArg Except.ok (Except.ok.inj e)
      | none =>
        obtain ⟨am, e2, e⟩ := bind_ok e
        simp only [lift_ok e2]
        split at e
        · rw [if_pos ‹_›]; exact parseNumberSlowPath_ok c ct F first opt bjf e
        · rw [if_neg ‹_›]; exact congrArg Except.ok (Except.ok.inj e)

theorem fromCharsFloatBody_ok (c : Cfg) (ct : CharType) (F : BinFmt) (first : List Nat) (opt : Options) {r : FloatResult}
    (e : FastFloat.fromCharsFloatBody c ct F first opt = .ok r) : fromCharsFloatBody c ct F first opt = .ok r := by
  cases first with
  | nil => exact congrArg Except.ok (Except.ok.inj e)
  | cons ch p =>
    unfold FastFloat.fromCharsFloatBody at e
    obtain ⟨pns, e1, e⟩ := bind_ok e
    unfold fromCharsFloatBody
    simp only [bind, Except.bind, lift_ok e1]
    exact fromCharsFloatParsed_ok c ct F (ch :: p) opt _ _ pns e

theorem fromCharsFloat_ok (c : Cfg) (ct : CharType) (F : BinFmt) (s : List Nat) (opt : Options) {r : ApiFloat}
    (e : FastFloat.fromCharsFloat c ct F s opt = .ok r) : fromCharsFloat c ct F s opt = .ok r := by
  unfold FastFloat.fromCharsFloat FastFloat.fromCharsFloatAdvanced at e
  obtain ⟨r', e1, e⟩ := bind_ok e
  obtain ⟨first, e2, e1⟩ := bind_ok e1
  unfold fromCharsFloat
  simp only [bind, Except.bind, lift_ok e2, fromCharsFloatBody_ok c ct F first opt e1]
  exact congrArg Except.ok (Except.ok.inj e)

end Mem
end FastFloat
