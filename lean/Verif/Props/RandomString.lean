import Verif.Proofs.RandomString
import Verif.Props.ExactText
import Verif.Props.ShortFast
import Verif.Props.Total
import Mathlib.Order.Interval.Finset.Nat
/-
# C89: the generators of random numerals
-/
set_option autoImplicit false
namespace FastFloat
open NumSpec FloatSpec ApiSpec Client

/-- The word that the engine gives in state 0. -/
def goodWord : Nat := 6661202149082483300

/-- How many words the engine gives from state `x` before it is back in state 0. -/
def untilGood (x : Nat) : Nat := ((0x60bee2bee120fc15 + 2 ^ 64 - x) * 5123055814024426301 + (2 ^ 64 - 1)) % 2 ^ 64

theorem wyNext_word (c : Cfg) (x : Nat) : (wyNext c x).1 < 2 ^ 64 := by
  have hlt : ∀ a b, a < 2 ^ 64 → b < 2 ^ 64 → (fullMultiplication c a b).high ^^^ (fullMultiplication c a b).low < 2 ^ 64 := by
    intro a b ha hb
    rw [fullMultiplication_eq c a b ha hb]
    refine Nat.xor_lt_two_pow ?_ (Nat.mod_lt _ (by norm_num))
    rw [Nat.div_lt_iff_lt_mul (by norm_num)]
    exact Nat.mul_lt_mul'' ha hb
  unfold wyNext
  exact hlt _ _ (hlt _ _ (Nat.mod_lt _ (by norm_num)) (by norm_num)) (by norm_num)

theorem wyNext_zero (c : Cfg) : (wyNext c 0).1 = goodWord := by
  have hlt : ∀ a b, a < 2 ^ 64 → b < 2 ^ 64 → (fullMultiplication c a b).high ^^^ (fullMultiplication c a b).low = (a * b / 2 ^ 64) ^^^ (a * b % 2 ^ 64) := by
    intro a b ha hb
    rw [fullMultiplication_eq c a b ha hb]
  unfold wyNext
  simp only
  rw [hlt ((0 + 0x60bee2bee120fc15) % 2 ^ 64) _ (by norm_num) (by norm_num)]
  rw [hlt _ _ (by decide +kernel) (by norm_num)]
  decide +kernel

theorem goodWord_star : ∀ s, 1 ≤ s → s ≤ 2000 → 2000 ≤ goodWord * s % 2 ^ 64 := by
  have : ∀ s, s < 2001 → 1 ≤ s → 2000 ≤ goodWord * s % 2 ^ 64 := by decide +kernel
  intro s h1 h2
  exact this s (by omega) h1

theorem step_gen {M C I K x : Nat} (h : C * I = M * K + 1) (hC : C < M) (hx : x < M) :
    x = 0 ∨ ((C + M - (x + C) % M) * I + (M - 1)) % M < ((C + M - x) * I + (M - 1)) % M := by
  have hM : 0 < M := by omega
  obtain ⟨A, hA⟩ : ∃ A : Nat, (C + M - x) * I + (M - 1) = A := ⟨_, rfl⟩
  obtain ⟨z, hz⟩ : ∃ z, x + z = M := ⟨M - x, by omega⟩
  have hA' : A = z * I + M * (K + 1) := by
    have e : C + M - x = C + z := by omega
    rw [← hA, e, Nat.add_mul, h, Nat.mul_add]
    omega
  by_cases h0 : A % M = 0
  · refine Or.inl ?_
    rw [hA', Nat.add_mul_mod_self_left] at h0
    have hd : M ∣ z * (C * I) := by
      obtain ⟨k, hk⟩ := Nat.dvd_of_mod_eq_zero h0
      exact ⟨k * C, by rw [show z * (C * I) = z * I * C by ring, hk]; ring⟩
    rw [h] at hd
    have hd' : M ∣ z := by
      rw [show z * (M * K + 1) = M * (z * K) + z by ring] at hd
      exact (Nat.dvd_add_right ⟨_, rfl⟩).1 hd
    obtain ⟨k, rfl⟩ := hd'
    rcases k with _ | k
    · omega
    · have : M * 1 ≤ M * (k + 1) := Nat.mul_le_mul_left _ (by omega)
      omega
  · refine Or.inr ?_
    obtain ⟨B, hB⟩ : ∃ B : Nat, (C + M - (x + C) % M) * I + (M - 1) = B := ⟨_, rfl⟩
    rw [hA, hB]
    have e : (B + 1) % M = A % M := by
      by_cases hl : x + C < M
      · rw [Nat.mod_eq_of_lt hl] at hB
        have e1 : C + M - (x + C) = z := by omega
        have : B + 1 = z * I + M * 1 := by rw [← hB, e1]; omega
        rw [this, hA', Nat.add_mul_mod_self_left, Nat.add_mul_mod_self_left]
      · have e2 : (x + C) % M = x + C - M := by
          rw [Nat.mod_eq_sub_mod (by omega), Nat.mod_eq_of_lt (by omega)]
        rw [e2] at hB
        have e1 : C + M - (x + C - M) = z + M := by omega
        have : B + 1 = z * I + M * (I + 1) := by rw [← hB, e1, Nat.add_mul, Nat.mul_add]; omega
        rw [this, hA', Nat.add_mul_mod_self_left, Nat.add_mul_mod_self_left]
    have hb := Nat.mod_lt B hM
    by_cases hl : B % M + 1 = M
    · rw [Nat.add_mod, ← Nat.add_mod_mod, Nat.mod_mod] at e
      rw [Nat.add_mod_mod, hl, Nat.mod_self] at e
      omega
    · have e3 : (B + 1) % M = B % M + 1 := by
        rw [← Nat.mod_add_mod, Nat.mod_eq_of_lt (by omega)]
      omega

theorem untilGood_step {x : Nat} (hx : x < 2 ^ 64) : x = 0 ∨ untilGood ((x + 0x60bee2bee120fc15) % 2 ^ 64) < untilGood x :=
  step_gen (K := 1936067778155425431) (by norm_num) (by norm_num) hx

theorem wy_source (c : Cfg) {fuel : Nat} (hf : 2 ^ 64 + 1 ≤ fuel) : Source (wyNext c) (· < 2 ^ 64) True fuel untilGood goodWord where
  word := fun x _ => wyNext_word c x
  next := fun x _ => Nat.mod_lt _ (by norm_num)
  star := goodWord_star
  digit := by decide +kernel
  bound := by
    intro _ x _
    have : untilGood x < 2 ^ 64 := Nat.mod_lt _ (by norm_num)
    omega
  dec := by
    intro _ x hx
    rcases untilGood_step hx with rfl | h
    · exact Or.inl (wyNext_zero c)
    · exact Or.inr h

theorem any_source {rng : Rng} (h : ∀ x, (rng x).1 < 2 ^ 64) (fuel : Nat) : Source rng (fun _ => True) False fuel (fun _ => 0) goodWord where
  word := fun x _ => h x
  next := fun _ _ => trivial
  star := goodWord_star
  digit := by decide +kernel
  bound := fun h => h.elim
  dec := fun h => h.elim

/-- **C89**: for every seed, both generators end - no loop makes more than `2^64 + 1` rounds -, stay inside the buffer of 4096 characters with its final zero, and leave
a JSON number of at most 19 or 2000 digits with an exponent of at most three digits, whose length is what is returned, and a state from which the next call may start. -/
theorem C89_text (c : Cfg) (short : Bool) {fuel x : Nat} (hf : 2 ^ 64 + 1 ≤ fuel) (hx : x < 2 ^ 64) :
    ∃ (n : Numeral) (y : Nat), Made short n ∧ buildRandomString c (wyNext c) fuel 4096 short x = .ok (n.text 46, y) ∧
      (n.text 46).length ≤ (if short then 26 else 2007) ∧ y < 2 ^ 64 := by
  rcases build_meets (c := c) (wy_source c hf) short hx with ⟨⟨t, y⟩, e, ⟨n, hn, rfl⟩, hl, hy⟩ | ⟨h, _⟩
  · exact ⟨n, y, hn, e, hl, hy⟩
  · exact (h trivial).elim

/-- **C89**: with any other source of 64-bit words, and any bound on the rounds, the generators leave such a number, too, or are still drawing. -/
theorem C89_any_source (c : Cfg) (short : Bool) {rng : Rng} (hr : ∀ x, (rng x).1 < 2 ^ 64) (fuel x : Nat) :
    (∃ (n : Numeral) (y : Nat), Made short n ∧ buildRandomString c rng fuel 4096 short x = .ok (n.text 46, y) ∧ (n.text 46).length ≤ (if short then 26 else 2007)) ∨
      buildRandomString c rng fuel 4096 short x = .error .fuel := by
  rcases build_meets (c := c) (any_source hr fuel) short (x := x) trivial with ⟨⟨t, y⟩, e, ⟨n, hn, rfl⟩, hl, _⟩ | ⟨_, h⟩
  · exact Or.inl ⟨n, y, hn, e, hl⟩
  · exact Or.inr h

theorem made_wf {short : Bool} {n : Numeral} (hn : Made short n) {g : Rules} (hs : g.scientific = true) (hfx : g.fixed = true) : n.WF g := by
  refine ⟨?_, hn.digits, ?_, ?_⟩
  · rcases hn.sign with h | h
    · exact Or.inl h
    · exact Or.inr (Or.inl h)
  · split
    · exact ⟨hn.int, hn.zero, hn.frac⟩
    · intro h
      exact hn.int (List.append_eq_nil_iff.1 h).1
  · rcases hn.exp with h | ⟨m, sg, ds, h, hm, hsg, h1, h3, hd⟩
    · rw [h]
      rintro ⟨_, h⟩
      rw [hfx] at h; cases h
    · rw [h]
      refine ⟨by rintro h; simp only at h; rw [h] at h1; simp at h1, hd, hsg, Or.inl ⟨hs, ?_⟩⟩
      rcases hm with rfl | rfl <;> simp

theorem made_units {short : Bool} {n : Numeral} (hn : Made short n) : ∀ u ∈ n.text 46, u < 128 := by
  intro u hu
  have hdig : ∀ d, NumSpec.IsDigit d → d < 128 := by intro d h; unfold NumSpec.IsDigit at h; omega
  unfold Numeral.text at hu
  rcases List.mem_append.1 hu with hu | hu
  · rcases List.mem_append.1 hu with hu | hu
    · rcases List.mem_append.1 hu with hu | hu
      · rcases hn.sign with h | h <;> rw [h] at hu <;> simp at hu
        omega
      · exact hdig u (hn.digits u (List.mem_append_left _ hu))
    · cases hfr : n.frac with
      | none => rw [hfr] at hu; simp [Numeral.fracText] at hu
      | some ds =>
        rw [hfr] at hu
        rcases List.mem_cons.1 hu with rfl | hu
        · omega
        · exact hdig u (hn.digits u (List.mem_append_right _ (by rw [hfr]; exact hu)))
  · rcases hn.exp with h | ⟨m, sg, ds, h, hm, hsg, h1, h3, hd⟩
    · rw [h] at hu; simp [Numeral.expText] at hu
    · rw [h] at hu
      simp only [Numeral.expText, Exponent.text, List.mem_append, Option.toList_some, List.mem_singleton] at hu
      rcases hu with (hu | hu) | hu
      · omega
      · rcases hsg with h | h | h <;> rw [h] at hu <;> simp at hu <;> omega
      · exact hdig u (hd u hu)

theorem made_text {short : Bool} {n : Numeral} (hn : Made short n) (c : Cfg) (opt : Options) : textOf c opt (n.text 46) = n.text 46 := by
  obtain ⟨a, l, hl⟩ := List.exists_cons_of_ne_nil hn.int
  have ha : NumSpec.IsDigit a := hn.digits a (by unfold Numeral.digits; rw [hl]; simp)
  rcases hn.sign with h | h
  · refine textOf_head c opt (u := a) (by unfold Numeral.text; rw [h, hl]; simp) ?_
    unfold NumSpec.IsDigit at ha
    unfold ApiSpec.isSpace
    simp; omega
  · exact textOf_head c opt (u := 45) (by unfold Numeral.text; rw [h]; simp) (by decide)

theorem made_munch {short : Bool} {n : Numeral} (hn : Made short n) (c : Cfg) (opt : Options) (hd : opt.decimalPoint = 46) (hsci : (c.eff opt).testBit 0 = true)
    (hfix : (c.eff opt).testBit 2 = true) : Munch (grammar c opt) (textOf c opt (n.text 46)) n [] := by
  rw [made_text hn]
  have := munch_of_ends (g := grammar c opt) (rest := []) (made_wf hn hsci hfix) (by intro u t h; cases h)
  rw [List.append_nil] at this
  have e : (grammar c opt).point = 46 := hd
  rw [e] at this
  exact this

theorem made_input {short : Bool} {n : Numeral} (hn : Made short n) (hl : (n.text 46).length ≤ (if short then 26 else 2007)) : Input .char (n.text 46) := by
  refine ⟨by decide, fun u hu => ?_, lt_of_le_of_lt hl (by cases short <;> norm_num)⟩
  have := made_units hn u hu
  exact ⟨lt_of_lt_of_le this (by decide), fun _ => Or.inl rfl⟩

/-- **C89**: what the generators leave is read by `from_chars` for `double`, `float` and `bfloat16_t` to its last character, in every format with fixed and scientific
notation - `general` and `json` among them -, and the result is that number correctly rounded, with a range error where that is due. -/
theorem C89_read (c c' : Cfg) (T : FloatTy) (hT : T ≠ .float16) (short : Bool) (opt : Options) (hd : opt.decimalPoint = 46) (hsci : (c'.eff opt).testBit 0 = true)
    (hfix : (c'.eff opt).testBit 2 = true) {fuel x : Nat} (hf : 2 ^ 64 + 1 ≤ fuel) (hx : x < 2 ^ 64) :
    ∃ (n : Numeral) (y : Nat) (ec : Errc) (b : Nat), buildRandomString c (wyNext c) fuel 4096 short x = .ok (n.text 46, y) ∧
      fromCharsFloat c' .char T.fmt (n.text 46) opt = .ok ⟨(n.text 46).length, ec, some b⟩ ∧ IeeeNumber T.spec n ec.code b := by
  obtain ⟨n, y, hn, e, hl, _⟩ := C89_text c short hf hx
  have hp : (grammar c' opt).PointOK := by
    have : (grammar c' opt).point = 46 := hd
    unfold Rules.PointOK NumSpec.IsDigit
    rw [this]; decide
  have hm := made_munch hn c' opt hd hsci hfix
  have hin := made_input hn hl
  obtain ⟨k, b, ec, hacc, _⟩ := scan_accepts (T := T) hin hp (munch_scan hp hm)
  refine ⟨n, y, ec, b, e, hacc.result, ?_⟩
  have hmod : Moderate n := by
    refine Or.inl ?_
    have := hn.count
    cases short <;> simp at this <;> omega
  obtain ⟨k', b', h1, h2, h3⟩ := accepts_exact hin hp hacc hmod
  simp only [Option.some.injEq] at h2
  rw [h2]
  exact codeOut_ieee hT h3

/-- **C89**: the texts of the second generator are "short": `from_chars` reads each of them in a single pass, in at most 238 steps, without big integers. -/
theorem C89_short (c c' : Cfg) (T : FloatTy) (opt : Options) (hd : opt.decimalPoint = 46) (hsci : (c'.eff opt).testBit 0 = true)
    (hfix : (c'.eff opt).testBit 2 = true) {fuel x : Nat} (hf : 2 ^ 64 + 1 ≤ fuel) (hx : x < 2 ^ 64) :
    ∃ (t : List Nat) (y : Nat), buildRandomString c (wyNext c) fuel 4096 true x = .ok (t, y) ∧
      (fromCharsFloatT c' .char T.fmt t opt).out = fromCharsFloat c' .char T.fmt t opt ∧ (fromCharsFloatT c' .char T.fmt t opt).steps ≤ 238 := by
  obtain ⟨n, y, hn, e, hl, _⟩ := C89_text c true hf hx
  have hp : (grammar c' opt).PointOK := by
    have : (grammar c' opt).point = 46 := hd
    unfold Rules.PointOK NumSpec.IsDigit
    rw [this]; decide
  have hin := made_input hn hl
  obtain ⟨h1, h2⟩ := C80_short c' T opt hin ((C74_greedy_iff_munch hp).2 (made_munch hn c' opt hd hsci hfix))
    (le_trans (List.length_dropWhile_le _ _) hn.count)
  refine ⟨_, y, e, h1, h2.trans ?_⟩
  simp only [if_true] at hl
  omega

/-! ### One draw -/

/-- The value that a single word gives, if it is accepted. -/
theorem single_draw (c : Cfg) {lo hi : Int} {s : Nat} (hlo : -2 ^ 31 ≤ lo) (hhi : hi < 2 ^ 31) (hle : lo ≤ hi) (hs : (s : Int) = hi - lo + 1) (hs31 : s < 2 ^ 31)
    {rng : Rng} {x : Nat} (hw : (rng x).1 < 2 ^ 64) (fuel : Nat) :
    nextRangedInt c rng fuel lo hi x =
      if 2 ^ 64 % s ≤ (rng x).1 * s % 2 ^ 64 ∧ (s ≤ (rng x).1 * s % 2 ^ 64 ∨ fuel ≠ 0) then .ok (lo + (((rng x).1 * s / 2 ^ 64 : Nat) : Int), (rng x).2)
      else (do
        let r ← rangedLoop c rng s (2 ^ 64 % s) fuel (rng x).2 (fullMultiplication c (rng x).1 s)
        let v ← chk32 (toInt32 r.1.high + lo)
        pure (v, r.2)) := by
  have hs1 : 1 ≤ s := by omega
  have e1 : ((hi - lo + 1) % 2 ^ 64).toNat = s := by rw [← hs]; omega
  have e3 : (2 ^ 64 - s) % 2 ^ 64 % s = 2 ^ 64 % s := by
    rw [Nat.mod_eq_of_lt (by omega : 2 ^ 64 - s < 2 ^ 64), Nat.mod_eq_sub_mod (by omega : 2 ^ 64 ≥ s)]
  have hm := fullMultiplication_eq c (rng x).1 s hw (by omega)
  have hh := high_lt hw hs1
  have ht : 2 ^ 64 % s < s := Nat.mod_lt _ (by omega)
  have fin : (do let v ← chk32 (toInt32 (fullMultiplication c (rng x).1 s).high + lo); pure (v, (rng x).2) : Exec (Int × Nat)) =
      .ok (lo + (((rng x).1 * s / 2 ^ 64 : Nat) : Int), (rng x).2) := by
    rw [hm]
    simp only
    have e : toInt32 ((rng x).1 * s / 2 ^ 64) = (((rng x).1 * s / 2 ^ 64 : Nat) : Int) := by
      unfold toInt32
      rw [Nat.mod_eq_of_lt (by omega), if_pos (by omega)]
    have hk : chk32 ((((rng x).1 * s / 2 ^ 64 : Nat) : Int) + lo) = .ok ((((rng x).1 * s / 2 ^ 64 : Nat) : Int) + lo) := by
      generalize (rng x).1 * s / 2 ^ 64 = q at hh
      exact Client.chk32_ok ⟨by omega, by omega⟩
    rw [e, hk, Int.add_comm]
    rfl
  have k1 : chk32 (hi - lo) = .ok (hi - lo) := Client.chk32_ok ⟨by omega, by omega⟩
  have k2 : chk32 (hi - lo + 1) = .ok (hi - lo + 1) := Client.chk32_ok ⟨by omega, by omega⟩
  unfold nextRangedInt
  rw [k1]
  simp only [bind, Except.bind] at fin ⊢
  rw [k2]
  simp only
  rw [e1, e3]
  by_cases h1 : (fullMultiplication c (rng x).1 s).low < s
  · rw [if_pos h1]
    rw [hm] at h1
    simp only at h1
    by_cases h2 : 2 ^ 64 % s ≤ (rng x).1 * s % 2 ^ 64
    · cases fuel with
      | zero => rw [if_neg (by rintro ⟨_, h | h⟩ <;> omega)]
      | succ k =>
        rw [if_pos ⟨h2, Or.inr (by omega)⟩, rangedLoop, if_neg (by rw [hm]; simp only; omega)]
        exact fin
    · rw [if_neg (fun h => h2 h.1)]
  · rw [if_neg h1]
    rw [hm] at h1
    simp only at h1
    rw [if_pos ⟨by omega, Or.inl (by omega)⟩]
    exact fin

theorem rangedLoop_any (c : Cfg) {rng : Rng} (hr : ∀ x, (rng x).1 < 2 ^ 64) (s t k : Nat) : ∀ x a, a < 2 ^ 64 →
    (∃ a' y, a' < 2 ^ 64 ∧ rangedLoop c rng s t k x (fullMultiplication c a s) = .ok (fullMultiplication c a' s, y)) ∨
      rangedLoop c rng s t k x (fullMultiplication c a s) = .error .fuel := by
  induction k with
  | zero => intro x a _; exact Or.inr rfl
  | succ k ih =>
    intro x a ha
    rw [rangedLoop]
    by_cases h : (fullMultiplication c a s).low < t
    · rw [if_pos h]; exact ih _ _ (hr x)
    · rw [if_neg h]; exact Or.inl ⟨a, x, ha, rfl⟩

/-- **C89**: a draw from the interval `[lo, hi]` of less than `2^31` integers is one of these, for every source of words; no intermediate result overflows. -/
theorem C89_range (c : Cfg) {lo hi : Int} (hlo : -2 ^ 31 ≤ lo) (hhi : hi < 2 ^ 31) (hle : lo ≤ hi) (hs : hi - lo + 1 < 2 ^ 31)
    {rng : Rng} (hr : ∀ x, (rng x).1 < 2 ^ 64) (fuel x : Nat) :
    (∃ v y, nextRangedInt c rng fuel lo hi x = .ok (v, y) ∧ lo ≤ v ∧ v ≤ hi) ∨ nextRangedInt c rng fuel lo hi x = .error .fuel := by
  obtain ⟨s, e⟩ : ∃ s : Nat, (s : Int) = hi - lo + 1 := ⟨(hi - lo + 1).toNat, by omega⟩
  have hs1 : 1 ≤ s := by omega
  have hs31 : s < 2 ^ 31 := by omega
  rw [single_draw c hlo hhi hle e hs31 (hr x) fuel]
  split
  · have hh := high_lt (hr x) hs1
    refine Or.inl ⟨_, _, rfl, ?_, ?_⟩ <;> generalize (rng x).1 * s / 2 ^ 64 = q at hh <;> omega
  · rcases rangedLoop_any c hr s (2 ^ 64 % s) fuel (rng x).2 _ (hr x) with ⟨a, y, ha, h⟩ | h
    · have hh := high_lt ha hs1
      rw [h]
      simp only [bind, Except.bind]
      rw [fullMultiplication_eq c a s ha (by omega)]
      simp only
      generalize a * s / 2 ^ 64 = q at hh
      have e1 : toInt32 q = (q : Int) := by
        unfold toInt32
        rw [Nat.mod_eq_of_lt (by omega), if_pos (by omega)]
      rw [e1, Client.chk32_ok ⟨by omega, by omega⟩]
      exact Or.inl ⟨_, _, rfl, by omega, by omega⟩
    · rw [h]; exact Or.inr rfl

/-- With at least one round, the draw is the loop. -/
theorem draw_loop (c : Cfg) {lo hi : Int} {s : Nat} (hlo : -2 ^ 31 ≤ lo) (hhi : hi < 2 ^ 31) (hle : lo ≤ hi) (hs : (s : Int) = hi - lo + 1) (hs31 : s < 2 ^ 31)
    {rng : Rng} {x : Nat} (hw : (rng x).1 < 2 ^ 64) (k : Nat) :
    nextRangedInt c rng (k + 1) lo hi x = (do
        let r ← rangedLoop c rng s (2 ^ 64 % s) (k + 1) (rng x).2 (fullMultiplication c (rng x).1 s)
        let v ← chk32 (toInt32 r.1.high + lo)
        pure (v, r.2)) := by
  rw [single_draw c hlo hhi hle hs hs31 hw (k + 1)]
  by_cases h : 2 ^ 64 % s ≤ (rng x).1 * s % 2 ^ 64
  · rw [if_pos ⟨h, Or.inr (by omega)⟩, rangedLoop]
    have hm := fullMultiplication_eq c (rng x).1 s hw (by omega)
    rw [if_neg (by rw [hm]; simp only; omega)]
    simp only [bind, Except.bind]
    rw [hm]
    simp only
    have hh := high_lt hw (s := s) (by omega)
    generalize (rng x).1 * s / 2 ^ 64 = q at hh
    have e1 : toInt32 q = (q : Int) := by
      unfold toInt32
      rw [Nat.mod_eq_of_lt (by omega), if_pos (by omega)]
    have hk : chk32 ((q : Int) + lo) = .ok ((q : Int) + lo) := Client.chk32_ok ⟨by omega, by omega⟩
    rw [e1, hk, Int.add_comm]
    rfl
  · rw [if_neg (fun h' => h h'.1)]

/-- **C89**: a draw uses the first word that is accepted: if the next word alone gives `v`, so does the draw; if not, the draw goes on from the next state. -/
theorem C89_first (c : Cfg) {lo hi : Int} (hlo : -2 ^ 31 ≤ lo) (hhi : hi < 2 ^ 31) (hle : lo ≤ hi) (hs : hi - lo + 1 < 2 ^ 31)
    {rng : Rng} (hr : ∀ x, (rng x).1 < 2 ^ 64) (fuel x : Nat) :
    nextRangedInt c rng (fuel + 2) lo hi x =
      match nextRangedInt c (fun _ => ((rng x).1, 0)) 1 lo hi 0 with
      | .ok (v, _) => .ok (v, (rng x).2)
      | .error _ => nextRangedInt c rng (fuel + 1) lo hi (rng x).2 := by
  obtain ⟨s, e⟩ : ∃ s : Nat, (s : Int) = hi - lo + 1 := ⟨(hi - lo + 1).toNat, by omega⟩
  have hs31 : s < 2 ^ 31 := by omega
  have hm := fullMultiplication_eq c (rng x).1 s (hr x) (by omega)
  rw [single_draw c hlo hhi hle e hs31 (hr x) (fuel + 2), single_draw c hlo hhi hle e hs31 (rng := fun _ => ((rng x).1, 0)) (hr x) 1,
    draw_loop c hlo hhi hle e hs31 (hr (rng x).2) fuel]
  simp only
  by_cases h : 2 ^ 64 % s ≤ (rng x).1 * s % 2 ^ 64
  · rw [if_pos ⟨h, Or.inr (by omega)⟩, if_pos ⟨h, Or.inr (by omega)⟩]
  · have hlow : (fullMultiplication c (rng x).1 s).low < 2 ^ 64 % s := by rw [hm]; simp only; omega
    have e1 : rangedLoop c (fun _ => ((rng x).1, 0)) s (2 ^ 64 % s) 1 0 (fullMultiplication c (rng x).1 s) = .error .fuel := by
      rw [rangedLoop, if_pos hlow]; rfl
    have e2 : rangedLoop c rng s (2 ^ 64 % s) (fuel + 2) (rng x).2 (fullMultiplication c (rng x).1 s) =
        rangedLoop c rng s (2 ^ 64 % s) (fuel + 1) (rng (rng x).2).2 (fullMultiplication c (rng (rng x).2).1 s) := by
      rw [rangedLoop, if_pos hlow]
    rw [if_neg (fun h' => h h'.1), if_neg (fun h' => h h'.1), e1, e2]
    rfl

/-- A word that is accepted for `k`: a multiple of `s` in an interval whose length is a multiple of `s`. -/
theorem accepted_iff {s k w : Nat} (hs1 : 1 ≤ s) :
    (2 ^ 64 % s ≤ w * s % 2 ^ 64 ∧ w * s / 2 ^ 64 = k) ↔
      (k * 2 ^ 64 + 2 ^ 64 % s + (s - 1)) / s ≤ w ∧ w < (k * 2 ^ 64 + 2 ^ 64 % s + (s - 1)) / s + 2 ^ 64 / s := by
  obtain ⟨M, hM⟩ : ∃ M : Nat, M = 2 ^ 64 := ⟨_, rfl⟩
  have hM0 : 0 < M := by rw [hM]; norm_num
  rw [← hM]
  clear hM
  obtain ⟨t, ht⟩ : ∃ t, t = M % s := ⟨_, rfl⟩
  obtain ⟨q, hq⟩ : ∃ q, q = M / s := ⟨_, rfl⟩
  obtain ⟨A, hA⟩ : ∃ A, A = (k * M + t + (s - 1)) / s := ⟨_, rfl⟩
  have hts : t < s := by rw [ht]; exact Nat.mod_lt _ (by omega)
  have e : s * q + t = M := by rw [hq, ht]; exact Nat.div_add_mod M s
  rw [← ht, ← hq, ← hA]
  have key : ∀ v : Nat, A ≤ v ↔ k * M + t ≤ v * s := by
    intro v
    rw [hA, Nat.div_le_iff_le_mul (by omega)]
    omega
  have h1 : w < A + q ↔ w * s < (k + 1) * M := by
    rcases Nat.lt_or_ge w q with h | h
    · have : w * s < q * s := Nat.mul_lt_mul_of_pos_right h (by omega)
      have e' : (k + 1) * M = k * M + M := by ring
      constructor
      · intro _; rw [e']; nlinarith
      · intro _; omega
    · obtain ⟨v, rfl⟩ := Nat.exists_eq_add_of_le h
      have := key v
      have e' : (k + 1) * M = k * M + (s * q + t) := by rw [e]; ring
      have e'' : (q + v) * s = s * q + v * s := by ring
      rw [e', e'']
      omega
  rw [key w, h1]
  have hd := Nat.div_add_mod (w * s) M
  have hmod := Nat.mod_lt (w * s) hM0
  have htM : t ≤ M := by omega
  constructor
  · rintro ⟨h2, h3⟩
    rw [h3] at hd
    constructor
    · nlinarith
    · nlinarith
  · rintro ⟨h2, h3⟩
    have h4 : w * s / M = k := by
      apply Nat.div_eq_of_lt_le
      · nlinarith
      · exact h3
    rw [h4] at hd
    exact ⟨by nlinarith, h4⟩

/-- **C89**: the draw is fair: each of the integers in `[lo, hi]` is the result for the same number of 64-bit words, `2^64 / (hi - lo + 1)` rounded down. -/
theorem C89_uniform (c : Cfg) {lo hi v : Int} (hlo : -2 ^ 31 ≤ lo) (hhi : hi < 2 ^ 31) (hv : lo ≤ v) (hv' : v ≤ hi) (hs : hi - lo + 1 < 2 ^ 31) :
    ∃ S : Finset Nat, S.card = 2 ^ 64 / (hi - lo + 1).toNat ∧
      ∀ w, w ∈ S ↔ w < 2 ^ 64 ∧ nextRangedInt c (fun _ => (w, 0)) 1 lo hi 0 = .ok (v, 0) := by
  obtain ⟨s, e⟩ : ∃ s : Nat, (s : Int) = hi - lo + 1 := ⟨(hi - lo + 1).toNat, by omega⟩
  obtain ⟨k, hk⟩ : ∃ k : Nat, (k : Int) = v - lo := ⟨(v - lo).toNat, by omega⟩
  have hs1 : 1 ≤ s := by omega
  have hs31 : s < 2 ^ 31 := by omega
  have es : (hi - lo + 1).toNat = s := by omega
  have hks : k < s := by omega
  rw [es]
  refine ⟨Finset.Ico ((k * 2 ^ 64 + 2 ^ 64 % s + (s - 1)) / s) ((k * 2 ^ 64 + 2 ^ 64 % s + (s - 1)) / s + 2 ^ 64 / s), by rw [Nat.card_Ico]; exact Nat.add_sub_cancel_left _ _, ?_⟩
  intro w
  rw [Finset.mem_Ico, ← accepted_iff hs1]
  have hw : w * s / 2 ^ 64 = k → w < 2 ^ 64 := by
    intro h
    by_contra hc
    have h1 : 2 ^ 64 * s ≤ w * s := Nat.mul_le_mul_right _ (by omega)
    have h2 : s ≤ w * s / 2 ^ 64 := by rw [Nat.le_div_iff_mul_le (by norm_num), Nat.mul_comm]; exact h1
    omega
  constructor
  · rintro ⟨h1, h2⟩
    refine ⟨hw h2, ?_⟩
    rw [single_draw c hlo hhi (by omega) e hs31 (rng := fun _ => (w, 0)) (hw h2) 1]
    simp only
    rw [if_pos ⟨h1, Or.inr (by omega)⟩, h2, show lo + (k : Int) = v by omega]
  · rintro ⟨h1, h2⟩
    rw [single_draw c hlo hhi (by omega) e hs31 (rng := fun _ => (w, 0)) h1 1] at h2
    simp only at h2
    by_cases h : 2 ^ 64 % s ≤ w * s % 2 ^ 64
    · rw [if_pos ⟨h, Or.inr (by omega)⟩] at h2
      simp only [Except.ok.injEq, Prod.mk.injEq] at h2
      generalize w * s / 2 ^ 64 = q at h2 ⊢
      exact ⟨h, by omega⟩
    · have hm := fullMultiplication_eq c w s h1 (by omega)
      have hlow : (fullMultiplication c w s).low < 2 ^ 64 % s := by rw [hm]; simp only; omega
      have e1 : rangedLoop c (fun _ => (w, 0)) s (2 ^ 64 % s) 1 0 (fullMultiplication c w s) = .error .fuel := by
        rw [rangedLoop, if_pos hlow]; rfl
      rw [if_neg (fun h' => h h'.1), e1] at h2
      cases h2

/-! ### The hypotheses are met -/

example : ∃ (n : Numeral) (y : Nat) (ec : Errc) (b : Nat), buildRandomString Cfg.x64 (wyNext Cfg.x64) (2 ^ 64 + 1) 4096 false 1234 = .ok (n.text 46, y) ∧
    fromCharsFloat Cfg.x64 .char FloatTy.double.fmt (n.text 46) {} = .ok ⟨(n.text 46).length, ec, some b⟩ ∧ IeeeNumber double n ec.code b :=
  C89_read Cfg.x64 Cfg.x64 .double (by decide) false {} rfl (by decide) (by decide) (by norm_num) (by norm_num)

example : buildRandomString Cfg.x64 (wyNext Cfg.x64) 40 4096 true 1234 = .ok ("-3513.665812559e-7".toList.map Char.toNat, 17269221719994053259) := by decide +kernel

example : ∃ S : Finset Nat, S.card = 2 ^ 64 / ((9 : Int) - 0 + 1).toNat ∧ ∀ w, w ∈ S ↔ w < 2 ^ 64 ∧ nextRangedInt Cfg.x64 (fun _ => (w, 0)) 1 0 9 0 = .ok (7, 0) :=
  C89_uniform Cfg.x64 (lo := 0) (hi := 9) (v := 7) (by norm_num) (by norm_num) (by norm_num) (by norm_num) (by norm_num)

end FastFloat
