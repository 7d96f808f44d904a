import Verif.Props.CostPaid
/-
# C75: the counter in the loops over limbs and in the slow path

Loop by loop, what the steps of the big-integer arithmetic stand for.
-/
set_option autoImplicit false
namespace FastFloat
open Timed

/-- The run of leading zeros: a step for every unit looked at. -/
theorem leadingZeroRunT_steps (dp : Nat) (p : List Nat) :
    Counts (leadingZeroRunT dp p) (fun _ n => n = looked p (p.dropWhile fun ch => ch == ch0 || ch == dp)) := by
  induction p with
  | nil => exact Counts.pure rfl
  | cons ch p ih =>
    refine Counts.tick (Counts.ite (fun h => Counts.bind ih fun k n e => Counts.pure ?_) fun h => Counts.pure ?_)
    · rw [List.dropWhile_cons_of_pos (p := fun ch => ch == ch0 || ch == dp) h, e]
      have := (List.dropWhile_suffix (l := p) fun ch => ch == ch0 || ch == dp).length_le
      unfold looked
      rw [List.length_cons]; omega
    · rw [List.dropWhile_cons_of_neg (p := fun ch => ch == ch0 || ch == dp) h]
      unfold looked; simp

/-- The recomputation of the mantissa: a step for every digit it uses, and one for the digit it stops at. -/
theorem truncLoopT_steps (p : List Nat) : ∀ i, Counts (truncLoopT p i) (fun r n => p.length + (if r.2 = 0 then 0 else 1) = n + r.2) := by
  induction p with
  | nil => intro i; exact Counts.pure rfl
  | cons ch p ih =>
    intro i
    refine Counts.tick (Counts.ite (fun _ => (ih _).mono fun r n h => ?_) fun _ => Counts.pure ?_)
    · rw [List.length_cons]; omega
    · rw [List.length_cons, if_neg (by simp)]; simp only; omega

/-- An infinity: three units compared with `nan`, three with `inf` and five with `inity`. -/
theorem infinity_steps (c : Cfg) (ct : CharType) (T : FloatTy) (first : List Nat) (fmt : Fmt) :
    Counts (parseInfnanT c ct T.fmt first fmt) (fun r n => (r.value = some (infIdx T.fmt) ∨ r.value = some (fpNeg T.fmt (infIdx T.fmt))) → n = 11) := by
  have hq : ∀ m : Bool, ¬ ((if m = true then fpNeg T.fmt (quietNaN T.fmt) else quietNaN T.fmt) = infIdx T.fmt ∨
      (if m = true then fpNeg T.fmt (quietNaN T.fmt) else quietNaN T.fmt) = fpNeg T.fmt (infIdx T.fmt)) := by
    intro m; cases m <;> cases T <;> decide
  unfold parseInfnanT
  refine Counts.runBind fun c0 _ => Counts.runBind fun p _ => Counts.ite (fun _ => Counts.tick (Counts.runBind fun isNan _ => Counts.ite (fun _ => ?_) fun _ => Counts.tick ?_))
    fun _ => Counts.pure fun h => by rcases h with h | h <;> cases h
  · refine Counts.runBind fun q _ => Counts.bind (Q := fun _ _ => True) (fun _ _ => trivial) fun e n _ => Counts.pure fun h => ?_
    exfalso
    simp only [Option.some.injEq] at h
    exact hq _ h
  · refine Counts.runBind fun isInf _ => Counts.ite (fun _ => ?_) fun _ => Counts.pure fun h => by rcases h with h | h <;> cases h
    refine Counts.bind (Q := fun _ n => n = 5) (Counts.tick (Counts.run fun _ _ => rfl)) fun e n h => Counts.pure fun _ => ?_
    omega

/-- `normalize` looks at the limbs from the top, up to the first nonzero one. -/
theorem dropZerosT_steps (v : Limbs) : Counts (dropZerosT v) (Walks v) := by
  induction v with
  | nil => exact Counts.pure Walks.nil
  | cons x v ih => exact Counts.tick (Counts.ite (fun _ => ih.mono fun _ _ h => h.step) fun _ => Counts.pure (Walks.stop x v))

theorem normalizeT_steps (v : Limbs) : Counts (normalizeT v) (fun r n => Walks v.reverse r.reverse n) := by
  unfold normalizeT
  refine Counts.bind (dropZerosT_steps v.reverse) fun r n h => Counts.pure ?_
  rw [List.reverse_reverse]; exact h

/-- `nonzero` looks at limbs up to the first nonzero one. -/
theorem anyNonzeroT_steps (v : Limbs) : Counts (anyNonzeroT v) (fun _ n => n = looked v (v.dropWhile (· == 0))) := by
  induction v with
  | nil => exact Counts.pure rfl
  | cons x v ih =>
    refine Counts.tick (Counts.ite (fun h => Counts.pure ?_) fun h => ih.mono fun _ n e => ?_)
    · rw [List.dropWhile_cons_of_neg (by simpa using h)]
      unfold looked; simp
    · rw [List.dropWhile_cons_of_pos (by simpa using h), e]
      have := (List.dropWhile_suffix (l := v) (· == 0)).length_le
      unfold looked
      rw [List.length_cons]; omega

/-- `small_add_from`: a step for every limb that changes. -/
theorem addCarryLoopT_steps (c : Cfg) (v : Limbs) : ∀ y, Counts (addCarryLoopT c v y) (fun r n => r.1.drop n = v.drop n ∧ n ≤ v.length) := by
  induction v with
  | nil => intro y; exact Counts.pure ⟨rfl, le_refl _⟩
  | cons x v ih =>
    intro y
    unfold addCarryLoopT
    refine Counts.ite (fun _ => Counts.pure ⟨rfl, Nat.zero_le _⟩) fun _ => Counts.tick ?_
    refine Counts.bind (ih _) fun r n h => Counts.pure ?_
    rw [show 1 + (n + 0) = n + 1 by omega, List.drop_succ_cons, List.drop_succ_cons, List.length_cons]
    exact ⟨h.1, by omega⟩

/-- `small_mul`: a step for every limb. -/
theorem mulLoopT_steps (c : Cfg) (y : Nat) (v : Limbs) : ∀ k, Counts (mulLoopT c y v k) (fun r n => n = v.length ∧ r.1.length = v.length) := by
  induction v with
  | nil => intro k; exact Counts.pure ⟨rfl, rfl⟩
  | cons x v ih =>
    intro k
    unfold mulLoopT
    refine Counts.tick (Counts.bind (ih _) fun r n h => Counts.pure ?_)
    simp only [List.length_cons]; omega

theorem tryPush_length {c : Cfg} {v r : Limbs} {x : Nat} (h : tryPush c v x = .ok r) : r.length = v.length + 1 := by
  unfold tryPush at h
  split at h
  · cases h; simp
  · cases h

theorem smallMulT_steps (c : Cfg) (v : Limbs) (y : Nat) : Counts (smallMulT c v y) (fun r n => n = v.length ∧ v.length ≤ r.length) := by
  unfold smallMulT
  refine Counts.bind (mulLoopT_steps c y v 0) fun r n h => Counts.ite (fun _ => Counts.run fun q hq => ?_) fun _ => Counts.pure ?_
  · have := tryPush_length hq; omega
  · omega

/-- `large_add_from`: a step for every limb of the summand. -/
theorem largeAddLoopT_steps (c : Cfg) (xs : Limbs) : ∀ ys k, Counts (largeAddLoopT c xs ys k) (fun _ n => n = ys.length) := by
  induction xs with
  | nil =>
    intro ys k
    cases ys with
    | nil => exact Counts.pure rfl
    | cons y ys => exact Counts.err
  | cons x xs ih =>
    intro ys k
    cases ys with
    | nil => exact Counts.pure rfl
    | cons y ys =>
      refine Counts.tick (Counts.bind (ih ys _) fun r n h => Counts.pure ?_)
      simp only [List.length_cons]; omega

/-- `try_resize`: a step for every new limb. -/
theorem resizeForT_steps (c : Cfg) (x y : Limbs) (start : Nat) :
    Counts (resizeForT c x y start) (fun r n => r.length = x.length + n ∧ y.length + start ≤ r.length) := by
  unfold resizeForT
  refine Counts.ite (fun h => Counts.ite (fun _ => Counts.err) fun _ => Counts.tick (Counts.pure ?_)) fun h => Counts.pure ?_
  · rw [List.length_append, List.length_replicate]; omega
  · omega

theorem largeAddFromT_steps (c : Cfg) (x y : Limbs) (start : Nat) :
    Counts (largeAddFromT c x y start) (fun _ n => y.length + (y.length + start - x.length) ≤ n) := by
  unfold largeAddFromT
  refine Counts.bind (resizeForT_steps c x y start) fun x1 n1 h1 => ?_
  refine Counts.bind (largeAddLoopT_steps c _ y false) fun r n2 h2 => ?_
  refine Counts.ite (fun _ => fun _ _ => ?_) fun _ => Counts.pure ?_ <;> omega

/-- `long_mul`: for every limb of the multiplier that is not zero, the multiplicand is copied, multiplied and added. -/
theorem longMulLoopT_steps (c : Cfg) (z ys : Limbs) :
    ∀ index x, Counts (longMulLoopT c z ys index x) (fun _ n => ys.length + 3 * z.length * ys.countP (· ≠ 0) ≤ n) := by
  induction ys with
  | nil => intro i x; exact Counts.pure (by simp)
  | cons y ys ih =>
    intro i x
    unfold longMulLoopT
    refine Counts.tick (Counts.ite (fun hy => Counts.tick ?_) fun hy => (ih _ _).mono fun _ n h => ?_)
    · refine Counts.bind (smallMulT_steps c z y) fun zi n1 h1 => Counts.bind (largeAddFromT_steps c x zi i) fun x1 n2 h2 => (ih _ _).mono fun _ n h => ?_
      rw [List.countP_cons_of_pos (by simpa using hy), List.length_cons, Nat.mul_add, Nat.mul_one]
      omega
    · rw [List.countP_cons_of_neg (by simpa using hy), List.length_cons]
      omega

theorem longMulT_steps (c : Cfg) (x : Limbs) (y0 : Nat) (ys : Limbs) :
    Counts (longMulT c x (y0 :: ys)) (fun _ n => 2 * x.length + ys.length + 3 * x.length * ys.countP (· ≠ 0) ≤ n) := by
  unfold longMulT
  refine Counts.tick ?_
  refine Counts.bind (smallMulT_steps c x y0) fun x1 n1 h1 => Counts.bind (longMulLoopT_steps c x ys 1 x1) fun r n2 h2 => fun _ _ => ?_
  omega

/-- `shl_bits`: a step for every limb. -/
theorem shlBitsLoopT_steps (lb k : Nat) (v : Limbs) : ∀ prev, Counts (shlBitsLoopT lb k v prev) (fun _ n => n = v.length) := by
  induction v with
  | nil => intro p; exact Counts.pure rfl
  | cons x v ih =>
    intro p
    refine Counts.tick (Counts.bind (ih _) fun r n h => Counts.pure ?_)
    simp only [List.length_cons]; omega

/-- `shl_limbs`: a step for every limb of the result. -/
theorem shlLimbsT_steps (c : Cfg) (v : Limbs) (k : Nat) : Counts (shlLimbsT c v k) (fun r n => n = r.length) := by
  unfold shlLimbsT
  refine Counts.ite (fun _ => Counts.err) fun _ => Counts.ite (fun _ => Counts.tick (Counts.pure ?_)) fun h => Counts.pure ?_
  · rw [List.length_append, List.length_replicate]; omega
  · omega

/-- `compare` of equal numbers looks at every limb. -/
theorem compareLoopT_steps (x : Limbs) : ∀ y, x.length = y.length → Counts (compareLoopT x y) (fun r n => n ≤ x.length ∧ (r = 0 → n = x.length) ∧ (x ≠ [] → 1 ≤ n)) := by
  induction x with
  | nil =>
    intro y h
    cases y with
    | nil => exact Counts.pure ⟨le_refl _, fun _ => rfl, fun h => absurd rfl h⟩
    | cons => cases h
  | cons a x ih =>
    intro y h
    cases y with
    | nil => cases h
    | cons b y =>
      simp only [List.length_cons] at h ⊢
      refine Counts.tick (Counts.ite (fun _ => Counts.pure ?_) fun _ => Counts.ite (fun _ => Counts.pure ?_) fun _ => (ih y (by omega)).mono fun r n h => ?_)
      · exact ⟨by omega, fun h => absurd h (by decide), fun _ => by omega⟩
      · exact ⟨by omega, fun h => absurd h (by decide), fun _ => by omega⟩
      · exact ⟨by omega, fun h0 => by have := h.2.1 h0; omega, fun _ => by omega⟩

/-- `pow5`, large steps: a step for every multiplication by 5^135. -/
theorem pow5LargeT_steps (c : Cfg) (fuel : Nat) : ∀ v e, Counts (pow5LargeT c fuel v e) (fun r n => r.2 < largeStep ∧ e ≤ r.2 + largeStep * n) := by
  induction fuel with
  | zero => intro v e; exact Counts.err
  | succ fuel ih =>
    intro v e
    unfold pow5LargeT
    refine Counts.ite (fun _ => Counts.tick ?_) fun h => Counts.pure ⟨by omega, by omega⟩
    refine Counts.bind (Q := fun _ _ => True) (fun _ _ => trivial) fun v' n1 _ => (ih v' _).mono fun r n h => ⟨h.1, ?_⟩
    have : largeStep * (n + 1) ≤ largeStep * (1 + (n1 + n)) := Nat.mul_le_mul_left _ (by omega)
    rw [Nat.mul_add, Nat.mul_one] at this
    omega

/-- `pow5`, small steps. -/
theorem pow5SmallT_steps (c : Cfg) (fuel : Nat) : ∀ v e, Counts (pow5SmallT c fuel v e) (fun r n => r.2 < smallStep c ∧ e ≤ r.2 + smallStep c * n) := by
  induction fuel with
  | zero => intro v e; exact Counts.err
  | succ fuel ih =>
    intro v e
    unfold pow5SmallT
    refine Counts.ite (fun _ => Counts.tick ?_) fun h => Counts.pure ⟨by omega, by omega⟩
    refine Counts.bind (Q := fun _ _ => True) (fun _ _ => trivial) fun v' n1 _ => (ih v' _).mono fun r n h => ⟨h.1, ?_⟩
    have : smallStep c * (n + 1) ≤ smallStep c * (1 + (n1 + n)) := Nat.mul_le_mul_left _ (by omega)
    rw [Nat.mul_add, Nat.mul_one] at this
    omega

/-- `scientific_exponent`: a step for every division. -/
theorem sciLoopT_steps (bound : Nat) (step : Int) (fuel : Nat) : ∀ m e,
    Counts (sciLoopT bound step fuel m e) (fun r n => r.1 = m / bound ^ n ∧ r.2 = e + step * n) := by
  induction fuel with
  | zero => intro m e; exact Counts.err
  | succ fuel ih =>
    intro m e
    unfold sciLoopT
    refine Counts.ite (fun _ => Counts.tick (Counts.runBind fun e' he => (ih _ e').mono fun r n h => ?_)) fun _ => Counts.pure ⟨by simp, by simp⟩
    have he := chk32_okT he
    subst he
    refine ⟨?_, ?_⟩
    · rw [h.1, Nat.div_div_eq_div_mul, ← pow_succ', Nat.add_comm 1 n]
    · rw [h.2]; push_cast; ring

/-- The digit loops of `parse_mantissa`: a step for every digit read, and every step reads a digit. -/
theorem pmEightLoopT_steps (c : Cfg) (ct : CharType) (step maxDigits fuel : Nat) : ∀ s,
    Counts (pmEightLoopT c ct step maxDigits fuel s) (fun r n => r.digits = s.digits + n ∧ r.counter = s.counter + n ∧ s.p.length = r.p.length + n) := by
  induction fuel with
  | zero => intro s; exact Counts.err
  | succ fuel ih =>
    intro s
    unfold pmEightLoopT
    refine Counts.ite (fun h8 => Counts.tick (Counts.runBind fun v _ => Counts.runBind fun p' hp => ?_)) fun _ => Counts.pure ⟨rfl, rfl, rfl⟩
    have hp := (skipN_okT hp).2
    refine (ih _).mono fun r n h => ?_
    dsimp only at h
    omega

theorem pmOneLoopT_steps (c : Cfg) (step maxDigits fuel : Nat) : ∀ s,
    Counts (pmOneLoopT c step maxDigits fuel s) (fun r n => r.digits = s.digits + n ∧ r.counter = s.counter + n ∧ s.p.length = r.p.length + n) := by
  induction fuel with
  | zero => intro s; exact Counts.err
  | succ fuel ih =>
    intro s
    unfold pmOneLoopT
    obtain ⟨p, value, counter, digits⟩ := s
    cases p with
    | nil => exact Counts.pure ⟨rfl, rfl, rfl⟩
    | cons ch p =>
      refine Counts.ite (fun _ => Counts.tick ((ih _).mono fun r n h => ?_)) fun _ => Counts.pure ⟨rfl, rfl, rfl⟩
      dsimp only [List.length_cons] at h ⊢
      omega

/-- `skip_zeros`: every zero skipped is paid for. -/
theorem skipZerosBlocksT_paid (c : Cfg) (ct : CharType) (fuel : Nat) : ∀ p, Counts (skipZerosBlocksT c ct fuel p) (fun q n => Paid 0 p q n) := by
  induction fuel with
  | zero => intro p; exact Counts.err
  | succ fuel ih =>
    intro p
    unfold skipZerosBlocksT
    refine Counts.ite (fun _ => Counts.tick (Counts.runBind fun b _ => Counts.ite (fun _ => Counts.pure (Paid.refl _ _ _)) fun _ => Counts.runBind fun p' hp => ?_))
      fun _ => Counts.pure (Paid.refl _ _ _)
    have hp := skipN_okT hp
    refine (ih p').mono fun r n h => ?_
    unfold Paid at *; omega

theorem skipZerosT_paid (c : Cfg) (ct : CharType) (p : List Nat) : Counts (skipZerosT c ct p) (fun q n => Paid 0 p q n) := by
  unfold skipZerosT
  refine Counts.bind (skipZerosBlocksT_paid c ct _ p) fun q n h => ((skipZerosUnitsT_steps q).mono fun r m h' => ?_)
  have h' := h'.paid
  unfold Paid at *; omega

/-- `is_truncated`: a run of zeros is read to its end. -/
theorem isTruncatedBlocksT_paid (c : Cfg) (ct : CharType) (fuel : Nat) : ∀ p,
    Counts (isTruncatedBlocksT c ct fuel p) (fun o n => ∀ q, o = some q → Paid 0 p q n) := by
  induction fuel with
  | zero => intro p; exact Counts.err
  | succ fuel ih =>
    intro p
    unfold isTruncatedBlocksT
    refine Counts.ite (fun _ => Counts.tick (Counts.runBind fun b _ => Counts.ite (fun _ => Counts.pure fun q h => by cases h) fun _ => Counts.runBind fun p' hp => ?_))
      fun _ => Counts.pure fun q h => by cases h; exact Paid.refl _ _ _
    have hp := skipN_okT hp
    refine (ih p').mono fun r n h q hq => ?_
    have := h q hq
    unfold Paid at *; omega

theorem anyNotZeroDigitT_steps (p : List Nat) : Counts (anyNotZeroDigitT p) (fun b n => n ≤ p.length ∧ (b = false → n = p.length)) := by
  induction p with
  | nil => exact Counts.pure ⟨le_refl _, fun _ => rfl⟩
  | cons ch p ih =>
    refine Counts.tick (Counts.ite (fun _ => Counts.pure ⟨?_, fun h => by cases h⟩) fun _ => ih.mono fun b n h => ?_)
    · simp only [List.length_cons]; omega
    · simp only [List.length_cons]
      exact ⟨by omega, fun hb => by have := h.2 hb; omega⟩

theorem isTruncatedT_paid (c : Cfg) (ct : CharType) (p : List Nat) : Counts (isTruncatedT c ct p) (fun b n => b = false → p.length ≤ n) := by
  unfold isTruncatedT
  refine Counts.bind (isTruncatedBlocksT_paid c ct _ p) fun o n h => ?_
  cases o with
  | none => exact Counts.pure fun h => by cases h
  | some q =>
    refine (anyNotZeroDigitT_steps q).mono fun b m h' hb => ?_
    have h1 := h q rfl
    have h2 := h'.2 hb
    unfold Paid at h1; omega

/-- What the digit loop of `parse_mantissa` has counted, one more if it rounded up. -/
def pmDigits : Sum (Limbs × Nat) (Limbs × Nat) → Nat
  | .inl x => x.2 - 1
  | .inr x => x.2

theorem pmLoopT_paid (c : Cfg) (ct : CharType) (maxDigits : Nat) (isT : List Nat → Timed Bool) (fuel : Nat) : ∀ big p digits,
    Counts (pmLoopT c ct maxDigits isT fuel big p digits) (fun r n => pmDigits r ≤ digits + n ∧ (p ≠ [] → pmDigits r < digits + n)) := by
  induction fuel with
  | zero => intro big p d; exact Counts.err
  | succ fuel ih =>
    intro big p d
    unfold pmLoopT
    refine Counts.ite (fun h => Counts.pure (by exact ⟨by simp [pmDigits], fun hp => absurd (List.length_eq_zero_iff.1 h) hp⟩)) fun _ => Counts.tick ?_
    have strict : ∀ {a b : Nat}, a < b → a ≤ b ∧ (p ≠ [] → a < b) := fun h => ⟨h.le, fun _ => h⟩
    refine Counts.bind (pmEightLoopT_steps c ct _ _ _ _) fun s1 n1 h1 => Counts.bind (pmOneLoopT_steps c _ _ _ s1) fun s2 n2 h2 => ?_
    replace h1 : s1.digits = d + n1 := h1.1
    replace h2 : s2.digits = s1.digits + n2 := h2.1
    refine Counts.runBind fun pw _ => Counts.bind (Q := fun _ _ => True) (fun _ _ => trivial) fun b n3 _ => ?_
    refine Counts.ite (fun _ => Counts.bind (Q := fun _ _ => True) (fun _ _ => trivial) fun t n4 _ => ?_) fun _ => (ih b s2.p s2.digits).mono fun r m h => ?_
    · refine Counts.ite (fun _ => ?_) fun _ => Counts.pure (strict ?_)
      · refine Counts.bind (Q := fun r _ => r.2 = s2.digits + 1) ?_ fun r n5 h5 => Counts.pure (strict ?_)
        · unfold roundUpBigintT
          exact Counts.bind (Q := fun _ _ => True) (fun _ _ => trivial) fun b' n _ => Counts.pure rfl
        · show r.2 - 1 < _
          omega
      · show s2.digits - 1 < _
        omega
    · exact strict (by have := h.1; omega)

/-- **C75**, the slow path: every digit that goes into the big integer is paid for (the one that rounding up adds is not a digit of the text). -/
theorem C75_every_digit_is_paid (c : Cfg) (ct : CharType) (num : ParsedNumber) (maxDigits : Nat) (big : Limbs) (digits : Nat)
    (h : (parseMantissaT c ct num maxDigits).out = .ok (big, digits)) : digits ≤ (parseMantissaT c ct num maxDigits).steps + 1 := by
  have H : Counts (parseMantissaT c ct num maxDigits) (fun r n => r.2 ≤ n + 1) := by
    unfold parseMantissaT
    refine Counts.bind (Q := fun _ _ => True) (fun _ _ => trivial) fun p n1 _ => ?_
    refine Counts.bind (pmLoopT_paid c ct maxDigits _ _ [] p 0) fun r n2 h2 => ?_
    cases r with
    | inl x =>
      refine Counts.pure ?_
      have h2 : x.2 - 1 ≤ 0 + n2 := h2.1
      omega
    | inr x =>
      obtain ⟨b, d⟩ := x
      replace h2 : d ≤ 0 + n2 := h2.1
      cases num.fraction with
      | none =>
        refine Counts.pure ?_
        show d ≤ _
        omega
      | some f =>
        have key : ∀ q m, Counts (pmLoopT c ct maxDigits (isTruncatedT c ct) (q.length + 1) b q d >>= fun r => match r with
            | .inl x => (Pure.pure x : Timed (Limbs × Nat))
            | .inr x => Pure.pure x) (fun r k => r.2 ≤ n1 + (n2 + (m + k)) + 1) := by
          intro q m
          refine Counts.bind (pmLoopT_paid c ct maxDigits _ _ b q d) fun r k h3 => ?_
          cases r with
          | inl x =>
            refine Counts.pure ?_
            have h3 : x.2 - 1 ≤ d + k := h3.1
            omega
          | inr x =>
            refine Counts.pure ?_
            have h3 : x.2 ≤ d + k := h3.1
            omega
        exact Counts.ite (fun _ => Counts.bind (Q := fun _ _ => True) (fun _ _ => trivial) fun q m _ => key q m)
          (fun _ => Counts.bind (Q := fun _ _ => True) (fun _ _ => trivial) fun q m _ => key q m)
  exact H _ h

end FastFloat
