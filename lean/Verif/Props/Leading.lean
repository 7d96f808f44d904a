import Verif.Spec.Leading
import Verif.Props.Narrow
import Verif.Props.ExactText
/-
# C83: which digits matter
-/
set_option linter.unusedSimpArgs false
set_option autoImplicit false
namespace FastFloat
open NumSpec FloatSpec ApiSpec

/-- How many significant digits a midpoint of two neighbouring floats can have. -/
def FloatTy.decisive : FloatTy → Nat
  | .double => 768
  | .float => 113
  | .bfloat16 => 97
  | .float16 => 22

structure DecisiveFacts (T : FloatTy) : Prop where
  one : 1 ≤ T.decisive
  low : 2 ^ (T.fmt.mb + 1) * 5 ^ ulpExp T.fmt ≤ 10 ^ (T.decisive - 1)
  high : fpVal T.fmt.mb T.spec.inf ≤ 10 ^ T.decisive * 2 ^ ulpExp T.fmt

theorem decisive_facts (T : FloatTy) : DecisiveFacts T := by
  cases T <;> constructor <;> decide +kernel

/-- No midpoint lies strictly between two neighbouring numbers of `T.decisive` digits. -/
theorem no_mid {T : FloatTy} {k P : Nat} {E : Int} (hk : k + 1 ≤ T.spec.inf) (hP : 10 ^ (T.decisive - 1) ≤ P)
    (h1 : 2 * ((P : ℚ) * 10 ^ E) < T.spec.val k + T.spec.val (k + 1)) (h2 : T.spec.val k + T.spec.val (k + 1) < 2 * (((P : ℚ) + 1) * 10 ^ E)) : False := by
  obtain ⟨f1, f2, f3⟩ := decisive_facts T
  obtain ⟨t, m, e1, e2, _⟩ := mid_form T.fmt.mb k
  obtain ⟨u, hu⟩ : ∃ u, ulpExp T.fmt = u := ⟨_, rfl⟩
  obtain ⟨N, hN⟩ : ∃ N, T.decisive = N := ⟨_, rfl⟩
  rw [hu] at f2 f3
  rw [hN] at f1 f2 f3 hP
  have hup : (0 : ℚ) < 2 ^ u := by positivity
  have hPq : (10 : ℚ) ^ (N - 1) ≤ P := by exact_mod_cast hP
  have hmid : T.spec.val k + T.spec.val (k + 1) = (2 * m + 1) * 2 ^ t / 2 ^ u := by
    rw [val_eq T.fmatch, val_eq T.fmatch, ← add_div, hu]
    congr 1
    exact_mod_cast e1
  rcases lt_or_ge 0 E with hE | hE
  · -- beyond the largest midpoint
    obtain ⟨n, rfl⟩ : ∃ n : Nat, E = (n : Int) + 1 := ⟨(E - 1).toNat, by omega⟩
    have h3 := sval_le T hk
    have h4 := sval_lt T (show k < k + 1 by omega)
    have h5 : T.spec.val T.spec.inf ≤ 10 ^ N := by
      rw [val_eq T.fmatch, hu, div_le_iff₀ hup]
      exact_mod_cast f3
    have h6 : (10 : ℚ) ^ N ≤ (P : ℚ) * 10 ^ ((n : Int) + 1) := by
      have a1 : (1 : ℚ) ≤ 10 ^ n := one_le_pow₀ (by norm_num)
      have a2 : (10 : ℚ) ^ ((n : Int) + 1) = 10 ^ n * 10 := by rw [zpow_add₀ (by norm_num)]; norm_num
      have a3 : (10 : ℚ) ^ N = 10 ^ (N - 1) * 10 := by rw [← pow_succ, Nat.sub_add_cancel f1]
      rw [a2, a3]
      have a4 : (0 : ℚ) ≤ P := by positivity
      nlinarith
    linarith
  · obtain ⟨K, rfl⟩ : ∃ K : Nat, E = -(K : Int) := ⟨(-E).toNat, by omega⟩
    have hz : (10 : ℚ) ^ (-(K : Int)) = 1 / 10 ^ K := by rw [zpow_neg]; simp
    have hK : (0 : ℚ) < 10 ^ K := by positivity
    rw [hz, hmid] at h1 h2
    have g1 : (P : ℚ) * 2 ^ (u + 1) < (2 * m + 1) * 2 ^ t * 10 ^ K := by
      rw [mul_one_div, ← mul_div_assoc, div_lt_div_iff₀ hK hup] at h1
      rw [pow_succ]; linarith
    have g2 : (2 * m + 1 : ℚ) * 2 ^ t * 10 ^ K < (P + 1) * 2 ^ (u + 1) := by
      rw [mul_one_div, ← mul_div_assoc, div_lt_div_iff₀ hup hK] at h2
      rw [pow_succ]; linarith
    have g1' : P * 2 ^ (u + 1) < (2 * m + 1) * 2 ^ t * 10 ^ K := by exact_mod_cast g1
    have g2' : (2 * m + 1) * 2 ^ t * 10 ^ K < (P + 1) * 2 ^ (u + 1) := by exact_mod_cast g2
    have h10 : (10 : Nat) ^ K = 5 ^ K * 2 ^ K := by rw [← Nat.mul_pow]
    rcases Nat.lt_or_ge (t + K) (u + 1) with hc | hc
    · -- the midpoint would be too large
      have c1 : (2 * m + 1) * 2 ^ t * 10 ^ K ≤ 2 ^ (T.fmt.mb + 2) * 5 ^ u * 2 ^ u := by
        rw [h10]
        calc (2 * m + 1) * 2 ^ t * (5 ^ K * 2 ^ K) = (2 * m + 1) * 5 ^ K * 2 ^ (t + K) := by rw [pow_add]; ring
          _ ≤ 2 ^ (T.fmt.mb + 2) * 5 ^ u * 2 ^ u := by
              refine Nat.mul_le_mul (Nat.mul_le_mul ?_ (Nat.pow_le_pow_right (by norm_num) (by omega))) (Nat.pow_le_pow_right (by norm_num) (by omega))
              have : 2 ^ (T.fmt.mb + 2) = 2 * 2 ^ (T.fmt.mb + 1) := by rw [pow_succ]; ring
              omega
      have c2 : 10 ^ (N - 1) * 2 ^ (u + 1) ≤ P * 2 ^ (u + 1) := Nat.mul_le_mul_right _ hP
      have c3 : 2 ^ (T.fmt.mb + 1) * 5 ^ u * 2 ^ (u + 1) ≤ 10 ^ (N - 1) * 2 ^ (u + 1) := Nat.mul_le_mul_right _ f2
      have c4 : 2 ^ (T.fmt.mb + 1) * 5 ^ u * 2 ^ (u + 1) = 2 ^ (T.fmt.mb + 2) * 5 ^ u * 2 ^ u := by
        rw [pow_succ 2 u, pow_succ 2 (T.fmt.mb + 1)]; ring
      omega
    · -- the midpoint is on the grid
      obtain ⟨d, hd⟩ := Nat.exists_eq_add_of_le hc
      have c1 : (2 * m + 1) * 2 ^ t * 10 ^ K = (2 * m + 1) * 5 ^ K * 2 ^ d * 2 ^ (u + 1) := by
        have : 2 ^ t * 2 ^ K = 2 ^ d * 2 ^ (u + 1) := by rw [← pow_add, ← pow_add]; congr 1; omega
        rw [h10]
        calc (2 * m + 1) * 2 ^ t * (5 ^ K * 2 ^ K) = (2 * m + 1) * 5 ^ K * (2 ^ t * 2 ^ K) := by ring
          _ = _ := by rw [this]; ring
      rw [c1] at g1' g2'
      have d1 := Nat.lt_of_mul_lt_mul_right g1'
      have d2 := Nat.lt_of_mul_lt_mul_right g2'
      omega

/-- Two numbers strictly between the same neighbours of `T.decisive` digits are on the same side of every midpoint. -/
theorem same_side {T : FloatTy} {P : Nat} {E : Int} (hP : 10 ^ (T.decisive - 1) ≤ P) {x x' : ℚ}
    (h1 : (P : ℚ) * 10 ^ E < x) (h2 : x < ((P : ℚ) + 1) * 10 ^ E) (h1' : (P : ℚ) * 10 ^ E < x')
    {k : Nat} (hk : k + 1 ≤ T.spec.inf) :
    2 * x ≠ T.spec.val k + T.spec.val (k + 1) ∧ (T.spec.val k + T.spec.val (k + 1) ≤ 2 * x → T.spec.val k + T.spec.val (k + 1) ≤ 2 * x') := by
  constructor
  · intro h
    exact no_mid hk hP (by linarith) (by linarith)
  · intro h
    by_contra hc
    rw [not_le] at hc
    exact no_mid hk hP (by linarith) (by linarith)

theorem same_rounding_le {T : FloatTy} {P : Nat} {E : Int} (hP : 10 ^ (T.decisive - 1) ≤ P) {x x' : ℚ}
    (h1 : (P : ℚ) * 10 ^ E < x) (h2 : x < ((P : ℚ) + 1) * 10 ^ E) (h1' : (P : ℚ) * 10 ^ E < x') (h2' : x' < ((P : ℚ) + 1) * 10 ^ E)
    {b b' : Nat} (hb : T.spec.RoundsTo x b) (hb' : T.spec.RoundsTo x' b') : b' ≤ b := by
  by_contra hc
  rw [not_le] at hc
  have hb'le : b' ≤ T.spec.inf := by rcases hb' with ⟨_, h⟩ | ⟨_, h, _⟩ <;> omega
  have hbf : b < T.spec.inf := by omega
  have m1 := (rounds_mids hb hbf).1
  have m2 : T.spec.val b + T.spec.val (b + 1) ≤ 2 * x' := by
    rcases Nat.lt_or_ge b' T.spec.inf with hlt | hge
    · obtain ⟨j, rfl⟩ : ∃ j, b' = j + 1 := ⟨b' - 1, by omega⟩
      have := (rounds_mids hb' hlt).2 j rfl
      have a1 := sval_le T (show b ≤ j by omega)
      have a2 := sval_le T (show b + 1 ≤ j + 1 by omega)
      linarith
    · have a0 := (roundsTo_inf hb').1 (by omega)
      have a1 := val_inf_mid T
      have a2 := sval_le T (show b ≤ T.spec.inf - 1 by omega)
      have a3 := sval_le T (show b + 1 ≤ T.spec.inf by omega)
      linarith
  have s1 := (same_side hP h1' h2' h1 (k := b) (by omega)).2 m2
  have s2 := (same_side hP h1 h2 h1' (k := b) (by omega)).1
  exact s2 (le_antisymm m1 s1)

theorem same_rounding {T : FloatTy} {P : Nat} {E : Int} (hP : 10 ^ (T.decisive - 1) ≤ P) {x x' : ℚ}
    (h1 : (P : ℚ) * 10 ^ E < x) (h2 : x < ((P : ℚ) + 1) * 10 ^ E) (h1' : (P : ℚ) * 10 ^ E < x') (h2' : x' < ((P : ℚ) + 1) * 10 ^ E)
    {b b' : Nat} (hb : T.spec.RoundsTo x b) (hb' : T.spec.RoundsTo x' b') : b = b' :=
  Nat.le_antisymm (same_rounding_le hP h1' h2' h1 h2 hb' hb) (same_rounding_le hP h1 h2 h1' h2' hb hb')

/-- The value of a numeral lies strictly between the number its leading digits write and the next one. -/
theorem leads_between {n : Numeral} (hd : ∀ u ∈ n.digits, NumSpec.IsDigit u) {p t : List Nat} {e : Int} (h : Leads n p t e) (hp : p ≠ []) (ht : NonzeroTail t) :
    10 ^ (p.length - 1) ≤ digitsVal p ∧ (digitsVal p : ℚ) * 10 ^ e < n.value ∧ n.value < ((digitsVal p : ℚ) + 1) * 10 ^ e := by
  obtain ⟨h1, h2⟩ := h
  have hs : ∀ u ∈ significant n.digits, NumSpec.IsDigit u := dz_mem hd
  have hpd : ∀ u ∈ p, NumSpec.IsDigit u := fun u hu => hs u (by rw [h1]; simp [hu])
  have htd : ∀ u ∈ t, NumSpec.IsDigit u := fun u hu => hs u (by rw [h1]; simp [hu])
  have hval : digitsVal n.digits = digitsVal p * 10 ^ t.length + digitsVal t := by
    rw [← digitsVal_app, ← h1]
    exact (dval_dz n.digits).symm
  have hlt : digitsVal t < 10 ^ t.length := dval_lt htd
  have hpos : 0 < digitsVal t := by
    rcases Nat.eq_zero_or_pos (digitsVal t) with h0 | h0
    · obtain ⟨d, d1, d2⟩ := ht
      have := (dval_eq_zero htd).1 h0
      rw [List.any_eq_false] at this
      exact absurd (by simpa using this d d1) d2
    · exact h0
  refine ⟨?_, ?_⟩
  · refine dval_ge hpd hp ?_
    have hid : dz (significant n.digits) = significant n.digits := dz_idem _
    rw [h1] at hid
    cases p with
    | nil => exact absurd rfl hp
    | cons a q =>
      have ha : (a == 48) = false := by
        by_contra hc
        have hc : a = 48 := by simpa using hc
        subst hc
        have h3 := congrArg List.length hid
        have h4 : (dz (q ++ t)).length ≤ (q ++ t).length := (List.dropWhile_sublist _).length_le
        simp only [dz, List.cons_append, List.dropWhile_cons, beq_self_eq_true, if_true, List.length_cons] at h3
        unfold dz at h4
        omega
      simp [dz, List.dropWhile_cons, ha]
  · have e1 : n.value = ((digitsVal p : ℚ) * 10 ^ t.length + digitsVal t) * (10 : ℚ) ^ (n.expVal - ((n.frac.getD []).length : Int)) := by
      unfold Numeral.value; rw [hval]; push_cast; rfl
    have e2 : (10 : ℚ) ^ e = 10 ^ t.length * (10 : ℚ) ^ (n.expVal - ((n.frac.getD []).length : Int)) := by
      rw [h2, zpow_add₀ (by norm_num), mul_comm]; norm_num
    have hq : (0 : ℚ) < (10 : ℚ) ^ (n.expVal - ((n.frac.getD []).length : Int)) := by positivity
    have hlt' : (digitsVal t : ℚ) < 10 ^ t.length := by exact_mod_cast hlt
    have hpos' : (0 : ℚ) < digitsVal t := by exact_mod_cast hpos
    rw [e1, e2, ← mul_assoc, ← mul_assoc]
    constructor
    · exact mul_lt_mul_of_pos_right (by linarith) hq
    · exact mul_lt_mul_of_pos_right (by linarith) hq

/-- The correctly rounded value is stored by an accepted call whose tail is not zero, for every type. -/
theorem leading_rounds {c : Cfg} {ct : CharType} {T : FloatTy} {s : List Nat} {opt : Options} (hin : Input ct s) (hp : (grammar c opt).PointOK) {n : Numeral}
    {rest : List Nat} {r : ApiFloat} (h : AcceptsNumber c ct T s opt n rest r) (hm : Moderate n) {p t : List Nat} {e : Int} (l : Leads n p t e)
    (hlen : T.decisive ≤ p.length) (ht : NonzeroTail t) : ∃ b, r.value = some b ∧ T.spec.RoundsToBits n.neg n.value b := by
  cases T with
  | double => exact C01_double_correctly_rounded c opt hin hp h hm
  | float => exact C02_float_correctly_rounded c opt hin hp h hm
  | bfloat16 => exact C03_bfloat16_correctly_rounded c opt hin hp h hm
  | float16 =>
    refine C04_float16_correctly_rounded_partial c opt hin hp h hm ?_
    rintro ⟨j, _, j2, j3⟩
    have hd : ∀ u ∈ n.digits, NumSpec.IsDigit u := h.longest.1.2.1
    have h22 : FloatTy.float16.decisive = 22 := rfl
    obtain ⟨b1, b2, b3⟩ := leads_between hd l (by intro h0; rw [h0] at hlen; simp [h22] at hlen) ht
    have hP : 10 ^ (FloatTy.float16.decisive - 1) ≤ digitsVal p := le_trans (Nat.pow_le_pow_right (by norm_num) (by omega)) b1
    refine (same_side (T := .float16) hP b2 b3 b2 (k := j) ?_).1 ?_
    · show j + 1 ≤ 31744
      omega
    · have v1 := half_val_lin (j := j) (by omega)
      have v2 := half_val_lin (j := j + 1) (by omega)
      show _ = half.val j + half.val (j + 1)
      rw [v1, v2, j3]
      push_cast
      ring

/-- **C83**: only so many digits matter.  If two accepted numbers have the same sign and the same first 768 (113 for `float`, 97 for `bfloat16`, 22 for `float16`)
significant digits at the same places, and neither has only zeros after them, then both calls store the same value and report the same error (the error for `float16`
is not included) - whatever the remaining digits are, and whatever the spelling, options, character types and configurations of the two calls. -/
theorem C83_leading_digits {c c' : Cfg} {ct ct' : CharType} (T : FloatTy) {s s' : List Nat} (opt opt' : Options) (hin : Input ct s) (hin' : Input ct' s')
    (hp : (grammar c opt).PointOK) (hp' : (grammar c' opt').PointOK) {n n' : Numeral} {rest rest' : List Nat} {r r' : ApiFloat}
    (h : AcceptsNumber c ct T s opt n rest r) (h' : AcceptsNumber c' ct' T s' opt' n' rest' r') (hm : Moderate n) (hm' : Moderate n') (hneg : n.neg = n'.neg)
    {p t t' : List Nat} {e : Int} (l : Leads n p t e) (l' : Leads n' p t' e) (hlen : T.decisive ≤ p.length) (ht : NonzeroTail t) (ht' : NonzeroTail t') :
    r.value = r'.value ∧ (T ≠ .float16 → r.ec = r'.ec) := by
  have hN := (decisive_facts T).one
  have hne : p ≠ [] := by intro h0; rw [h0] at hlen; simp at hlen; omega
  obtain ⟨b1, b2, b3⟩ := leads_between h.longest.1.2.1 l hne ht
  obtain ⟨_, b2', b3'⟩ := leads_between h'.longest.1.2.1 l' hne ht'
  have hP : 10 ^ (T.decisive - 1) ≤ digitsVal p := le_trans (Nat.pow_le_pow_right (by norm_num) (by omega)) b1
  obtain ⟨b, v1, k, v2, v3⟩ := leading_rounds hin hp h hm l hlen ht
  obtain ⟨b', v1', k', v2', v3'⟩ := leading_rounds hin' hp' h' hm' l' hlen ht'
  have hk := same_rounding hP b2 b3 b2' b3' v2 v2'
  subst hk
  refine ⟨by rw [v1, v1', v3, v3', hneg], fun hT => ?_⟩
  have hpos : (0 : ℚ) < n.value := lt_of_le_of_lt (by positivity) b2
  have hpos' : (0 : ℚ) < n'.value := lt_of_le_of_lt (by positivity) b2'
  obtain ⟨o1, _⟩ := C05_overflow c T hT opt hin hp h hm
  obtain ⟨o1', _⟩ := C05_overflow c' T hT opt' hin' hp' h' hm'
  obtain ⟨u1, _, u3⟩ := C06_underflow c T opt hin hp h hm (fun h => absurd h hT)
  obtain ⟨u1', _, u3'⟩ := C06_underflow c' T opt' hin' hp' h' hm' (fun h => absurd h hT)
  have eo : T.spec.overflowThreshold ≤ n.value ↔ T.spec.overflowThreshold ≤ n'.value := by
    rw [← roundsTo_inf v2, ← roundsTo_inf v2']
  have hinf : 1 ≤ T.spec.inf := by cases T <;> decide +kernel
  have hz : T.spec.val 0 = 0 := by simp [Format.val]
  have su := (same_side hP b2 b3 b2' (k := 0) hinf)
  have su' := (same_side hP b2' b3' b2 (k := 0) hinf)
  rw [hz, zero_add, zero_add] at su su'
  have eu : n.value ≤ T.spec.val 1 / 2 ↔ n'.value ≤ T.spec.val 1 / 2 := by
    constructor
    · intro hx
      by_contra hc
      rw [not_le] at hc
      exact su.1 (le_antisymm (by linarith) (su'.2 (by linarith)))
    · intro hx
      by_contra hc
      rw [not_le] at hc
      exact su'.1 (le_antisymm (by linarith) (su.2 (by linarith)))
  by_cases c1 : T.spec.overflowThreshold ≤ n.value
  · rw [(o1.1 c1).1, (o1'.1 (eo.1 c1)).1]
  · by_cases c2 : n.value ≤ T.spec.val 1 / 2
    · rw [(u1.1 ⟨hpos, c2⟩).1, (u1'.1 ⟨hpos', eu.1 c2⟩).1]
    · rw [u3 (not_le.1 c2) (not_le.1 c1), u3' (not_le.1 (fun h => c2 (eu.2 h))) (not_le.1 (fun h => c1 (eo.2 h)))]

/-! ### One digit fewer is not enough -/

/-- The last `N` decimal digits of `M`, as characters. -/
def decDigits (M N : Nat) : List Nat := (List.range N).map fun i => 48 + M / 10 ^ (N - 1 - i) % 10

/-- All digits but the last of the midpoint of the last two floats of the lowest normal binade, a number of exactly `T.decisive` digits. -/
def FloatTy.sharpLead (T : FloatTy) : List Nat := decDigits ((2 ^ (T.fmt.mb + 2) - 1) * 5 ^ (ulpExp T.fmt + 1) / 10) (T.decisive - 1)

/-- The numeral that goes on with `t` (two digits) after these digits, at the place of the midpoint. -/
def FloatTy.sharpNumeral (T : FloatTy) (t : List Nat) : Numeral :=
  ⟨none, T.sharpLead ++ t, none, some ⟨some 101, some 45, decDigits (ulpExp T.fmt + 2) 4⟩⟩

/-- Its text. -/
def FloatTy.sharpText (T : FloatTy) (t : List Nat) : List Nat := (T.sharpNumeral t).text 46

theorem sharp_accepts (T : FloatTy) (t : List Nat) (ht : t = [52, 49] ∨ t = [54, 49]) :
    ∃ r, AcceptsNumber Cfg.x64 CharType.char T (T.sharpText t) {} (T.sharpNumeral t) [] r ∧
      r = ⟨(T.sharpText t).length, .ok, some (2 ^ (T.fmt.mb + 1) - 1 + (if t = [52, 49] then 0 else 1))⟩ := by
  refine ⟨_, ⟨?_, ?_, scan_longest sample_point ?_⟩, rfl⟩
  · rcases ht with rfl | rfl <;> cases T <;> decide +kernel
  · simp
  · rcases ht with rfl | rfl <;> cases T <;> decide +kernel

theorem sharp_leads (T : FloatTy) (t : List Nat) (ht : t = [52, 49] ∨ t = [54, 49]) : Leads (T.sharpNumeral t) T.sharpLead t (-(ulpExp T.fmt : Int)) := by
  constructor
  · rcases ht with rfl | rfl <;> cases T <;> decide +kernel
  · rcases ht with rfl | rfl <;> cases T <;> decide +kernel

theorem sharp_input (T : FloatTy) (t : List Nat) (ht : t = [52, 49] ∨ t = [54, 49]) : Input CharType.char (T.sharpText t) := by
  refine input_of_bytes ?_ ?_ <;> rcases ht with rfl | rfl <;> cases T <;> decide +kernel

/-- **C83**: one digit fewer is not enough.  For every type there are two accepted numbers of the same sign with the same first 767 (112, 96, 21) significant digits at the
same places, both with other digits than zero after them, for which the calls store different values. -/
theorem C83_sharp (T : FloatTy) : ∃ (s s' : List Nat) (n n' : Numeral) (p t t' : List Nat) (e : Int) (r r' : ApiFloat),
    Input CharType.char s ∧ Input CharType.char s' ∧ AcceptsNumber Cfg.x64 CharType.char T s {} n [] r ∧ AcceptsNumber Cfg.x64 CharType.char T s' {} n' [] r' ∧
    Moderate n ∧ Moderate n' ∧ n.neg = n'.neg ∧ Leads n p t e ∧ Leads n' p t' e ∧ p.length + 1 = T.decisive ∧ NonzeroTail t ∧ NonzeroTail t' ∧
    r.value ≠ r'.value := by
  obtain ⟨r, h, e⟩ := sharp_accepts T [52, 49] (Or.inl rfl)
  obtain ⟨r', h', e'⟩ := sharp_accepts T [54, 49] (Or.inr rfl)
  refine ⟨_, _, _, _, T.sharpLead, [52, 49], [54, 49], -(ulpExp T.fmt : Int), r, r', sharp_input T _ (Or.inl rfl), sharp_input T _ (Or.inr rfl), h, h', ?_, ?_, rfl,
    sharp_leads T _ (Or.inl rfl), sharp_leads T _ (Or.inr rfl), ?_, ⟨52, by decide, by decide⟩, ⟨54, by decide, by decide⟩, ?_⟩
  · exact Or.inl (by cases T <;> decide +kernel)
  · exact Or.inl (by cases T <;> decide +kernel)
  · cases T <;> decide +kernel
  · rw [e, e']
    simp only [ne_eq, Option.some.injEq]
    simp

/-! ### A case that meets the hypotheses -/

/-- `2048.9999999999999999995` and `2048999999999999999999123e-21` for `float16`: the same 22 digits, then other ones. -/
def leadAText : List Nat := [50, 48, 52, 56, 46, 57, 57, 57, 57, 57, 57, 57, 57, 57, 57, 57, 57, 57, 57, 57, 57, 57, 57, 53]
def leadANumeral : Numeral := ⟨none, [50, 48, 52, 56], some [57, 57, 57, 57, 57, 57, 57, 57, 57, 57, 57, 57, 57, 57, 57, 57, 57, 57, 53], none⟩
def leadBText : List Nat := [50, 48, 52, 56, 57, 57, 57, 57, 57, 57, 57, 57, 57, 57, 57, 57, 57, 57, 57, 57, 57, 57, 49, 50, 51, 101, 45, 50, 49]
def leadBNumeral : Numeral := ⟨none, [50, 48, 52, 56, 57, 57, 57, 57, 57, 57, 57, 57, 57, 57, 57, 57, 57, 57, 57, 57, 57, 57, 49, 50, 51], none, some ⟨some 101, some 45, [50, 49]⟩⟩
theorem leadA_accepts : AcceptsNumber Cfg.x64 CharType.char .float16 leadAText {} leadANumeral [] ⟨24, .ok, some 26624⟩ :=
  ⟨by decide +kernel, by decide, scan_longest sample_point (by decide +kernel)⟩
theorem leadB_accepts : AcceptsNumber Cfg.x64 CharType.char .float16 leadBText {} leadBNumeral [] ⟨29, .ok, some 26624⟩ :=
  ⟨by decide +kernel, by decide, scan_longest sample_point (by decide +kernel)⟩

example : (some 26624 : Option Nat) = some 26624 ∧ (FloatTy.float16 ≠ .float16 → Errc.ok = Errc.ok) :=
  C83_leading_digits (c := Cfg.x64) (c' := Cfg.x64) (ct := CharType.char) (ct' := CharType.char) .float16 {} {} (input_of_bytes (by decide) (by decide))
    (input_of_bytes (by decide) (by decide)) sample_point sample_point leadA_accepts leadB_accepts (Or.inl (by decide)) (Or.inl (by decide)) rfl
    (p := [50, 48, 52, 56, 57, 57, 57, 57, 57, 57, 57, 57, 57, 57, 57, 57, 57, 57, 57, 57, 57, 57]) (t := [53]) (t' := [49, 50, 51]) (e := -18)
    ⟨by decide, by decide⟩ ⟨by decide, by decide⟩ (by decide) ⟨53, by decide, by decide⟩ ⟨49, by decide, by decide⟩

end FastFloat
