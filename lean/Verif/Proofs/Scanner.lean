import Verif.Props.Vocabulary
import Verif.Proofs.ScanSpec
import Verif.Proofs.SlowPath
/-
# `parse_number_string` computes the reference scanner

Units are constrained by `UnitOK`: they fit the character type, and for a signed 4-byte `wchar_t` they are not among the 48 values
for which `c - '0'` overflows `int`.
-/
set_option linter.unusedSimpArgs false

namespace FastFloat
open NumSpec

theorem isInteger_eq {ct : CharType} (hw : ct.WF) {u : Nat} (h : UnitOK ct u) : isInteger ct u = .ok (isDigB u) := by
  obtain ⟨h1, h2⟩ := h
  unfold isInteger isDigB
  by_cases hc : ct.width = 4 ∧ ct.signed = false
  · rw [if_pos hc]
    rw [hc.1] at h1
    refine congrArg Except.ok (decide_eq_decide.2 ?_)
    unfold IsDigit
    norm_num at h1
    clear hc h2 hw
    omega
  · rw [if_neg hc]
    obtain ⟨d, hd⟩ : ∃ d, ct.toInt u - 48 = d := ⟨_, rfl⟩
    have hd2 : -2 ^ 31 ≤ d ∧ d < 2 ^ 31 ∧ ((d % 2 ^ 32).toNat ≤ 9 ↔ 48 ≤ u ∧ u ≤ 57) := by
      rw [← hd]
      unfold CharType.toInt
      rcases hw.1 with w | w | w <;> rw [w] at h1 h2 hc ⊢ <;> cases hs : ct.signed <;> simp only [hs] at h2 hc ⊢ <;> simp at h1 h2 hc ⊢
      · omega
      · split <;> omega
      · omega
      · split <;> omega
      · split <;> omega
    rw [hd, chk32_ok hd2.1 hd2.2.1]
    exact congrArg Except.ok (decide_eq_decide.2 hd2.2.2)

theorem run_cons_pos {a : Nat} {s : List Nat} (h : isDigB a = true) : run (a :: s) = a :: run s ∧ afterRun (a :: s) = afterRun s := by
  unfold run afterRun
  rw [List.takeWhile_cons_of_pos h, List.dropWhile_cons_of_pos h]; exact ⟨rfl, rfl⟩

theorem run_cons_neg {a : Nat} {s : List Nat} (h : isDigB a = false) : run (a :: s) = [] ∧ afterRun (a :: s) = a :: s := by
  have h : ¬ isDigB a = true := by simp [h]
  unfold run afterRun
  rw [List.takeWhile_cons_of_neg h, List.dropWhile_cons_of_neg h]; exact ⟨rfl, rfl⟩

theorem step_mod (i d : Nat) : (10 * (i % 2 ^ 64) + d) % 2 ^ 64 = (i * 10 + d) % 2 ^ 64 := by
  rw [Nat.add_mod, Nat.mul_mod, Nat.mod_mod, ← Nat.mul_mod, ← Nat.add_mod, Nat.mul_comm]

theorem block_mod (i B d : Nat) : (i % 2 ^ 64 * B + d) % 2 ^ 64 = (i * B + d) % 2 ^ 64 := by
  rw [Nat.add_mod, Nat.mul_mod, Nat.mod_mod, ← Nat.mul_mod, ← Nat.add_mod]

/-- The digit loop consumes the maximal run. -/
theorem digitLoop_eq {ct : CharType} (hw : ct.WF) : ∀ (p : List Nat) (i : Nat), (∀ u ∈ p, UnitOK ct u) →
    digitLoop ct p (i % 2 ^ 64) = .ok (afterRun p, dvalFrom i (run p) % 2 ^ 64) := by
  intro p
  induction p with
  | nil => intro i _; rfl
  | cons a p ih =>
    intro i h
    unfold digitLoop
    rw [isInteger_eq hw (h a List.mem_cons_self)]
    cases hd : isDigB a with
    | true =>
      simp only
      rw [step_mod, ih _ (fun u hu => h u (List.mem_cons_of_mem _ hu)), (run_cons_pos hd).1, (run_cons_pos hd).2]
      rfl
    | false =>
      simp only
      rw [(run_cons_neg hd).1, (run_cons_neg hd).2]
      rfl

theorem ifDigit_loop (ct : CharType) (p : List Nat) (i : Nat) :
    ifDigit ct p i (fun d => (10 * i + d) % 2 ^ 64) (digitLoop ct) = digitLoop ct p i := by
  cases p <;> rfl

/-- The peeled integer scan is the plain loop. -/
theorem intDigits_eq_loop (ct : CharType) (p : List Nat) : intDigits ct p = digitLoop ct p 0 := by
  unfold intDigits
  have e : (fun d : Nat => d % 2 ^ 64) = fun d => (10 * 0 + d) % 2 ^ 64 := by funext d; simp
  have h : ∀ k, (k = digitLoop ct) → (fun (p : List Nat) (i : Nat) => ifDigit ct p i (fun d => (10 * i + d) % 2 ^ 64) k) = digitLoop ct := by
    rintro k rfl
    funext p i
    exact ifDigit_loop ct p i
  rw [e, h _ (h _ (h _ (h _ rfl))), ifDigit_loop]

/-- A step that consumes some digits. -/
def Consumes (p : List Nat) (i : Nat) (r : List Nat × Nat) : Prop :=
  ∃ l, p = l ++ r.1 ∧ (∀ c ∈ l, IsDig c) ∧ r.2 = dvalFrom i l % 2 ^ 64

theorem Consumes.trans {p : List Nat} {i : Nat} {r : List Nat × Nat} {r' : List Nat × Nat} (h : Consumes p i r)
    (h' : ∀ j, r.2 = j % 2 ^ 64 → Consumes r.1 j r') : Consumes p i r' := by
  obtain ⟨l, h1, h2, h3⟩ := h
  obtain ⟨l', h1', h2', h3'⟩ := h' _ h3
  refine ⟨l ++ l', by rw [h1, h1', List.append_assoc], ?_, by rw [dvalFrom_append]; exact h3'⟩
  intro c hc
  rcases List.mem_append.1 hc with hc | hc
  · exact h2 c hc
  · exact h2' c hc

theorem Consumes.refl (p : List Nat) (i : Nat) : Consumes p i (p, i % 2 ^ 64) :=
  ⟨[], rfl, by simp, rfl⟩

theorem Consumes.block {p : List Nat} {n B : Nat} (hp : n ≤ p.length) (h : ∀ c ∈ p.take n, IsDig c) (hB : B = 10 ^ n) (i : Nat) :
    Consumes p i (p.drop n, (i % 2 ^ 64 * B + dval (p.take n)) % 2 ^ 64) := by
  refine ⟨p.take n, (List.take_append_drop n p).symm, h, ?_⟩
  simp only
  rw [block_mod, dvalFrom_eq, hB, List.length_take, min_eq_left hp]

theorem charEightLoop_eq (c : Cfg) (ct : CharType) : ∀ (fuel : Nat) (p : List Nat) (i : Nat), p.length < fuel →
    (∀ u ∈ p, u < 256) → ∃ r, charEightLoop c ct fuel p (i % 2 ^ 64) = .ok r ∧ Consumes p i r := by
  intro fuel
  induction fuel with
  | zero => intro p i h; omega
  | succ fuel ih =>
    intro p i hf hu
    unfold charEightLoop
    by_cases hp : p.length ≥ 8
    · rw [if_pos hp]
      have ht : ∀ x ∈ p.take 8, x < 256 := fun x hx => hu x (List.mem_of_mem_take hx)
      have hl : (p.take 8).length = 8 := by rw [List.length_take]; omega
      simp only [bind, Except.bind, read8_eq c ct p hp ht]
      by_cases hd : isMadeOfEightDigitsFast (leWord 1 (p.take 8)) = true
      · have hdig := (isMadeOfEight_iff _ hl ht).1 hd
        rw [if_pos hd]
        simp only [skipN_ok hp, parseEight_eq _ hl hdig]
        have hb := Consumes.block hp hdig (by norm_num : 100000000 = 10 ^ 8) i
        rw [block_mod]
        obtain ⟨r, e1, e2⟩ := ih (p.drop 8) (i * 100000000 + dval (p.take 8)) (by rw [List.length_drop]; omega)
          (fun u hh => hu u (List.mem_of_mem_drop hh))
        refine ⟨r, e1, ?_⟩
        obtain ⟨l, g1, g2, g3⟩ := e2
        refine ⟨p.take 8 ++ l, by rw [List.append_assoc, ← g1, List.take_append_drop], ?_, ?_⟩
        · intro x hx
          rcases List.mem_append.1 hx with hx | hx
          · exact hdig x hx
          · exact g2 x hx
        · rw [g3, dvalFrom_append, dvalFrom_eq (p.take 8), hl]; norm_num
      · rw [if_neg hd]
        exact ⟨_, rfl, Consumes.refl p i⟩
    · rw [if_neg hp]
      exact ⟨_, rfl, Consumes.refl p i⟩

theorem clangFour_eq (c : Cfg) (ct : CharType) (p : List Nat) (i : Nat) (hu : ∀ u ∈ p, u < 256) :
    ∃ r, clangFour c ct p (i % 2 ^ 64) = .ok r ∧ Consumes p i r := by
  unfold clangFour
  by_cases hp : (c.clang && decide (p.length ≥ 4)) = true
  · rw [if_pos hp]
    have hp : 4 ≤ p.length := by simp at hp; exact hp.2
    have ht : ∀ x ∈ p.take 4, x < 256 := fun x hx => hu x (List.mem_of_mem_take hx)
    have hl : (p.take 4).length = 4 := by rw [List.length_take]; omega
    simp only [bind, Except.bind, read4_eq c ct p hp ht]
    by_cases hd : isMadeOfFourDigitsFast (leWord 1 (p.take 4)) = true
    · have hdig := (isMadeOfFour_iff _ hl ht).1 hd
      rw [if_pos hd]
      simp only [skipN_ok hp, parseFour_eq _ hl hdig]
      exact ⟨_, rfl, Consumes.block hp hdig (by norm_num : 10000 = 10 ^ 4) i⟩
    · rw [if_neg hd]
      exact ⟨_, rfl, Consumes.refl p i⟩
  · rw [if_neg hp]
    exact ⟨_, rfl, Consumes.refl p i⟩

theorem simdEightLoop_eq (c : Cfg) (hs : c.simd ≠ .none) : ∀ (fuel : Nat) (p : List Nat) (i : Nat), p.length < fuel →
    (∀ u ∈ p, u < 2 ^ 16) → ∃ r, simdEightLoop c fuel p (i % 2 ^ 64) = .ok r ∧ Consumes p i r := by
  intro fuel
  induction fuel with
  | zero => intro p i h; omega
  | succ fuel ih =>
    intro p i hf hu
    unfold simdEightLoop
    by_cases hp : p.length ≥ 8
    · rw [if_pos hp]
      have ht : ∀ x ∈ p.take 8, x < 2 ^ 16 := fun x hx => hu x (List.mem_of_mem_take hx)
      have hl : (p.take 8).length = 8 := by rw [List.length_take]; omega
      unfold simdParseIfEight
      by_cases hce : c.constEval = true
      · rw [if_pos hce]
        simp only [bind, Except.bind]
        exact ⟨_, rfl, Consumes.refl p i⟩
      · rw [if_neg hce]
        simp only [bind, Except.bind, readBlock_ok hp]
        by_cases hd : (p.take 8).all (simdLaneDigit c.simd) = true
        · have hdig : ∀ x ∈ p.take 8, IsDig x := by
            intro x hx
            exact (simdLaneDigit_iff c.simd hs x (ht x hx)).1 (List.all_eq_true.1 hd x hx)
          rw [if_pos hd]
          simp only [pure, Except.pure, skipN_ok hp, simdRead8_eq c hs _ hdig, parseEight_eq _ hl hdig]
          rw [block_mod]
          obtain ⟨r, e1, e2⟩ := ih (p.drop 8) (i * 100000000 + dval (p.take 8)) (by rw [List.length_drop]; omega)
            (fun u hh => hu u (List.mem_of_mem_drop hh))
          refine ⟨r, e1, ?_⟩
          obtain ⟨l, g1, g2, g3⟩ := e2
          refine ⟨p.take 8 ++ l, by rw [List.append_assoc, ← g1, List.take_append_drop], ?_, ?_⟩
          · intro x hx
            rcases List.mem_append.1 hx with hx | hx
            · exact hdig x hx
            · exact g2 x hx
          · rw [g3, dvalFrom_append, dvalFrom_eq (p.take 8), hl]; norm_num
        · rw [if_neg hd]
          exact ⟨_, rfl, Consumes.refl p i⟩
    · rw [if_neg hp]
      exact ⟨_, rfl, Consumes.refl p i⟩

/-- The block loops consume digits only. -/
theorem loopParse_eq (c : Cfg) {ct : CharType} (hw : ct.WF) (p : List Nat) (i : Nat) (hu : ∀ u ∈ p, u < 2 ^ (8 * ct.width)) :
    ∃ r, loopParseIfEightDigits c ct p (i % 2 ^ 64) = .ok r ∧ Consumes p i r := by
  unfold loopParseIfEightDigits
  by_cases hc : ct.isChar = true
  · rw [if_pos hc]
    have hb : ∀ u ∈ p, u < 256 := by
      intro u h
      have := hu u h
      rw [hw.2.1 hc] at this; exact this
    obtain ⟨r, e1, e2⟩ := charEightLoop_eq c ct (p.length + 1) p i (by omega) hb
    simp only [bind, Except.bind, e1]
    obtain ⟨l, g1, g2, g3⟩ := e2
    have hb' : ∀ u ∈ r.1, u < 256 := fun u h => hb u (by rw [g1]; exact List.mem_append_right _ h)
    obtain ⟨r', f1, f2⟩ := clangFour_eq c ct r.1 (dvalFrom i l) hb'
    rw [g3, f1]
    obtain ⟨l', k1, k2, k3⟩ := f2
    refine ⟨r', rfl, l ++ l', by rw [List.append_assoc, ← k1, ← g1], ?_, by rw [dvalFrom_append]; exact k3⟩
    intro x hx
    rcases List.mem_append.1 hx with hx | hx
    · exact g2 x hx
    · exact k2 x hx
  · rw [if_neg hc]
    by_cases hs : hasSimdOpt c ct = true
    · rw [if_pos hs]
      unfold hasSimdOpt at hs
      simp only [Bool.and_eq_true, bne_iff_ne, ne_eq] at hs
      apply simdEightLoop_eq c hs.2 _ _ _ (by omega)
      intro u h
      have := hu u h
      rw [(hw.2.2 hs.1).1] at this; exact this
    · rw [if_neg hs]
      exact ⟨_, rfl, Consumes.refl p i⟩

/-- Block loop followed by the digit loop: the maximal run. -/
theorem loops_eq (c : Cfg) {ct : CharType} (hw : ct.WF) (p : List Nat) (i : Nat) (hu : ∀ u ∈ p, UnitOK ct u) :
    ∃ r, loopParseIfEightDigits c ct p (i % 2 ^ 64) = .ok r ∧ digitLoop ct r.1 r.2 = .ok (afterRun p, dvalFrom i (run p) % 2 ^ 64) := by
  obtain ⟨r, e1, l, g1, g2, g3⟩ := loopParse_eq c hw p i (fun u h => (hu u h).1)
  refine ⟨r, e1, ?_⟩
  have hu' : ∀ u ∈ r.1, UnitOK ct u := fun u h => hu u (by rw [g1]; exact List.mem_append_right _ h)
  rw [g3, digitLoop_eq hw _ _ hu']
  obtain ⟨r1, r2⟩ := run_digits_append (s := r.1) g2
  rw [g1, r1, r2, dvalFrom_append]

/-! ### Exponent -/

/-- The saturating fold of the exponent digit loop (ascii_number.h:496-502). -/
def satFold (n : Nat) (ds : List Nat) : Nat := ds.foldl (fun n ch => if n < 0x10000000 then 10 * n + (ch - 48) else n) n

/-- One step of the saturating fold. -/
def satStep (n ch : Nat) : Nat := if n < 0x10000000 then 10 * n + (ch - 48) else n

theorem satFold_cons (n a : Nat) (ds : List Nat) : satFold n (a :: ds) = satFold (satStep n a) ds := rfl

theorem expAccum_eq {n a : Nat} (ha : IsDigit a) : expAccum n a = .ok (satStep n a : Int) := by
  unfold IsDigit at ha
  unfold satStep expAccum
  by_cases hn : n < 0x10000000
  · rw [if_pos hn, if_pos (by omega)]
    unfold chk64
    rw [if_pos (by omega)]
    push_cast; rfl
  · rw [if_neg hn, if_neg (by omega)]

theorem satStep_lt {n a : Nat} (ha : IsDigit a) (hn : n < 2 ^ 62) : satStep n a < 2 ^ 62 := by
  unfold IsDigit at ha
  unfold satStep
  split <;> omega

theorem expDigitLoop_eq {ct : CharType} (hw : ct.WF) : ∀ (p : List Nat) (n : Nat), (∀ u ∈ p, UnitOK ct u) → n < 2 ^ 62 →
    expDigitLoop ct p n = .ok (afterRun p, (satFold n (run p) : Int)) := by
  intro p
  induction p with
  | nil => intro n _ _; simp [expDigitLoop, run, afterRun, satFold]
  | cons a p ih =>
    intro n h hn
    unfold expDigitLoop
    rw [isInteger_eq hw (h a List.mem_cons_self)]
    cases hd : isDigB a with
    | true =>
      have ha : IsDigit a := of_decide_eq_true hd
      rw [expAccum_eq ha, (run_cons_pos hd).1, (run_cons_pos hd).2, satFold_cons]
      have h' := fun u hu => h u (List.mem_cons_of_mem _ hu)
      simp only [bind, Except.bind]
      exact ih _ h' (satStep_lt ha hn)
    | false =>
      simp only
      rw [(run_cons_neg hd).1, (run_cons_neg hd).2]
      simp [satFold]

theorem satFold_spec : ∀ (ds : List Nat) (n m : Nat), (∀ c ∈ ds, IsDigit c) → (n = m ∨ (0x10000000 ≤ n ∧ n ≤ m)) → n < 10 * 0x10000000 →
    (satFold n ds = dvalFrom m ds ∨ (0x10000000 ≤ satFold n ds ∧ satFold n ds ≤ dvalFrom m ds)) ∧ satFold n ds < 10 * 0x10000000 := by
  intro ds
  induction ds with
  | nil => intro n m _ h1 h2; exact ⟨h1, h2⟩
  | cons a ds ih =>
    intro n m hd h1 h2
    have ha := hd a List.mem_cons_self
    unfold IsDigit at ha
    have hd' : ∀ c ∈ ds, IsDigit c := fun c hc => hd c (List.mem_cons_of_mem _ hc)
    unfold satFold dvalFrom
    rw [List.foldl_cons, List.foldl_cons]
    by_cases hc : n < 0x10000000
    · rw [if_pos hc]
      have : n = m := by omega
      subst this
      have := ih (10 * n + (a - 48)) (n * 10 + (a - 48)) hd' (Or.inl (by ring)) (by omega)
      exact this
    · rw [if_neg hc]
      exact ih n (m * 10 + (a - 48)) hd' (Or.inr (by omega)) h2

/-- Saturated exponent digits: exact below `2^28`, otherwise at least `2^28` and at most the true value. -/
theorem satFold_zero (ds : List Nat) (hd : ∀ c ∈ ds, IsDigit c) :
    (satFold 0 ds = digitsVal ds ∨ (0x10000000 ≤ satFold 0 ds ∧ satFold 0 ds ≤ digitsVal ds)) ∧ satFold 0 ds < 10 * 0x10000000 :=
  satFold_spec ds 0 0 hd (Or.inl rfl) (by norm_num)

/-- The exponent value as accumulated by the code. -/
def satExp : Option Exponent → Int
  | none => 0
  | some e => if e.sign = some 45 then -(satFold 0 e.digits : Int) else satFold 0 e.digits

end FastFloat
