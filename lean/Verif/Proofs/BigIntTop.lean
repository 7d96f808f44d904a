import Verif.Proofs.BigIntVal
/-
# Big integers: shifts, comparison, the top 64 bits, the bit length
-/
namespace FastFloat

/-! ### shl -/

theorem or_parts' (a b k : Nat) (h : b < 2 ^ k) : a * 2 ^ k ||| b = a * 2 ^ k + b := by
  rw [← Nat.shiftLeft_eq, Nat.shiftLeft_add_eq_or_of_lt h]

theorem shlBitsLoop_spec (lb n : Nat) (hn : n < lb) : ∀ (v : Limbs) (prev : Nat), LimbsOK lb v → prev < 2 ^ lb →
    let r := shlBitsLoop lb n v prev
    bval lb r.1 + 2 ^ (lb * v.length) * (r.2 / 2 ^ (lb - n)) = bval lb v * 2 ^ n + prev / 2 ^ (lb - n) ∧
    LimbsOK lb r.1 ∧ r.2 < 2 ^ lb ∧ r.1.length = v.length := by
  intro v
  induction v with
  | nil => intro prev _ hp; simp [shlBitsLoop, bval, LimbsOK, hp]
  | cons x xs ih =>
    intro prev h hp
    have h2 := h x List.mem_cons_self
    have h1 : LimbsOK lb xs := fun z hz => h z (List.mem_cons_of_mem _ hz)
    simp only [shlBitsLoop]
    obtain ⟨a1, a2, a3, a4⟩ := ih x h1 h2
    generalize shlBitsLoop lb n xs x = r at *
    have hsplit : 2 ^ lb = 2 ^ (lb - n) * 2 ^ n := by rw [← pow_add]; congr 1; omega
    have hpn : prev / 2 ^ (lb - n) < 2 ^ n := by
      rw [Nat.div_lt_iff_lt_mul (Nat.two_pow_pos _), Nat.mul_comm, ← hsplit]; exact hp
    have hm : x * 2 ^ n % 2 ^ lb = (x % 2 ^ (lb - n)) * 2 ^ n := by
      rw [hsplit, Nat.mul_mod_mul_right]
    have hor : (x * 2 ^ n % 2 ^ lb ||| prev / 2 ^ (lb - n)) = (x % 2 ^ (lb - n)) * 2 ^ n + prev / 2 ^ (lb - n) := by
      rw [hm, or_parts' _ _ _ hpn]
    have hx := Nat.div_add_mod x (2 ^ (lb - n))
    have hmlt := Nat.mod_lt x (Nat.two_pow_pos (lb - n))
    rw [hor]
    refine ⟨?_, ?_, a3, by simp [a4]⟩
    · simp only [bval, List.length_cons, Nat.mul_add, Nat.mul_one, pow_add]
      have e1 : bval lb r.1 * 2 ^ lb + 2 ^ (lb * xs.length) * (r.2 / 2 ^ (lb - n)) * 2 ^ lb =
          bval lb xs * 2 ^ n * 2 ^ lb + x / 2 ^ (lb - n) * 2 ^ lb := by rw [← Nat.add_mul, a1, Nat.add_mul]
      have e2 : x / 2 ^ (lb - n) * 2 ^ lb = (2 ^ (lb - n) * (x / 2 ^ (lb - n))) * 2 ^ n := by rw [hsplit]; ring
      have e3 : x * 2 ^ n = (2 ^ (lb - n) * (x / 2 ^ (lb - n))) * 2 ^ n + (x % 2 ^ (lb - n)) * 2 ^ n := by
        rw [← Nat.add_mul, hx]
      have e4 : (x + 2 ^ lb * bval lb xs) * 2 ^ n = x * 2 ^ n + bval lb xs * 2 ^ n * 2 ^ lb := by ring
      rw [e4, e3, ← e2]
      have e5 : 2 ^ (lb * xs.length) * 2 ^ lb * (r.2 / 2 ^ (lb - n)) = 2 ^ (lb * xs.length) * (r.2 / 2 ^ (lb - n)) * 2 ^ lb := by ring
      rw [e5, Nat.mul_comm (2 ^ lb)]
      linarith
    · intro z hz
      rcases List.mem_cons.1 hz with rfl | hz
      · rw [hsplit]
        have : (x % 2 ^ (lb - n) + 1) * 2 ^ n ≤ 2 ^ (lb - n) * 2 ^ n := Nat.mul_le_mul_right _ hmlt
        rw [Nat.add_mul, Nat.one_mul] at this
        omega
      · exact a2 z hz

/-- Lengths of normalised vectors against the capacity. -/
theorem cap_of_norm (c : Cfg) {v : Limbs} {div : Nat} (hne : v ≠ []) (hn : Norm (limbBits c) v)
    (hb : bval (limbBits c) v * 2 ^ (limbBits c * div) < 2 ^ 3200) : div + v.length < bigintLimbs c := by
  have h1 : 2 ^ (limbBits c * (v.length - 1)) * 2 ^ (limbBits c * div) < 2 ^ 3200 :=
    lt_of_le_of_lt (Nat.mul_le_mul_right _ (hn hne)) hb
  rw [← pow_add] at h1
  have h2 := (Nat.pow_lt_pow_iff_right (by norm_num)).1 h1
  clear h1 hb
  have : 0 < v.length := List.length_pos_iff.2 hne
  unfold bigintLimbs limbBits at *
  cases hc : c.limb64 <;> simp [hc] at * <;> omega

theorem shlBits_spec (c : Cfg) (v : Limbs) (n : Nat) (hv : LimbsOK (limbBits c) v) (hn : Norm (limbBits c) v)
    (h0 : n ≠ 0) (hlt : n < limbBits c) (hcap : v.length < bigintLimbs c) :
    ∃ r, shlBits c v n = .ok r ∧ bval (limbBits c) r = bval (limbBits c) v * 2 ^ n ∧ LimbsOK (limbBits c) r ∧
      Norm (limbBits c) r := by
  obtain ⟨a1, a2, a3, a4⟩ := shlBitsLoop_spec (limbBits c) n hlt v 0 hv (Nat.two_pow_pos _)
  unfold shlBits
  rw [if_neg (by omega)]
  simp only
  have hk : (shlBitsLoop (limbBits c) n v 0).2 / 2 ^ (limbBits c - n) < 2 ^ limbBits c :=
    lt_of_le_of_lt (Nat.div_le_self _ _) a3
  obtain ⟨r, e, hr1, hr2, hr3, hr4, hr5⟩ := push_spec c (shlBitsLoop (limbBits c) n v 0).1 _ (bval (limbBits c) v * 2 ^ n) a2 hk
    (by rw [a4]; simpa using a1) (by rw [a4]; intro _; exact hcap)
  refine ⟨r, e, hr1, hr2, ?_⟩
  rw [a4] at hr3 hr4 hr5
  intro hne
  rw [hr1]
  rcases Nat.lt_or_ge v.length r.length with h | h
  · have := hr5 (by omega)
    have e : r.length - 1 = v.length := by omega
    rw [e]; exact this
  · have e : r.length = v.length := by omega
    rw [e]
    have hvne : v ≠ [] := by
      intro hc; rw [hc] at e; simp at e; exact hne e
    exact le_trans (hn hvne) (Nat.le_mul_of_pos_right _ (Nat.two_pow_pos n))

theorem bigShl_spec (c : Cfg) (v : Limbs) (n : Nat) (hv : LimbsOK (limbBits c) v) (hn : Norm (limbBits c) v)
    (hpos : 0 < bval (limbBits c) v) (hb : bval (limbBits c) v * 2 ^ n < 2 ^ 3200) :
    ∃ r, bigShl c v n = .ok r ∧ bval (limbBits c) r = bval (limbBits c) v * 2 ^ n ∧ LimbsOK (limbBits c) r ∧
      Norm (limbBits c) r := by
  have hlb := limbBits_pos c
  have hvne := Norm.ne_nil_of_pos hpos
  have hle : bval (limbBits c) v ≤ bval (limbBits c) v * 2 ^ n := Nat.le_mul_of_pos_right _ (Nat.two_pow_pos n)
  have hcap0 := cap_of_norm c (div := 0) hvne hn (by simpa using lt_of_le_of_lt hle hb)
  have hdm := Nat.div_add_mod n (limbBits c)
  have hrw : bigShl c v n = (match (if n % limbBits c ≠ 0 then shlBits c v (n % limbBits c) else .ok v) with
      | .error e => .error e
      | .ok v => if n / limbBits c ≠ 0 then shlLimbs c v (n / limbBits c) else .ok v) := by
    unfold bigShl
    simp only [bind, Except.bind, pure, Except.pure]
    by_cases h : n % limbBits c ≠ 0
    · rw [if_pos h, if_pos h]
      cases shlBits c v (n % limbBits c) <;> rfl
    · rw [if_neg h, if_neg h]
  rw [hrw]
  have step1 : ∃ r, (if n % limbBits c ≠ 0 then shlBits c v (n % limbBits c) else .ok v) = .ok r ∧
      bval (limbBits c) r = bval (limbBits c) v * 2 ^ (n % limbBits c) ∧ LimbsOK (limbBits c) r ∧ Norm (limbBits c) r := by
    by_cases h : n % limbBits c ≠ 0
    · rw [if_pos h]
      exact shlBits_spec c v _ hv hn h (Nat.mod_lt _ (by omega)) (by omega)
    · rw [if_neg h]
      exact ⟨v, rfl, by rw [not_not.1 h]; simp, hv, hn⟩
  obtain ⟨r, e, r1, r2, r3⟩ := step1
  rw [e]
  simp only
  have hr : bval (limbBits c) r * 2 ^ (limbBits c * (n / limbBits c)) = bval (limbBits c) v * 2 ^ n := by
    rw [r1, Nat.mul_assoc, ← pow_add, Nat.add_comm, hdm]
  by_cases h : n / limbBits c ≠ 0
  · rw [if_pos h]
    unfold shlLimbs
    have hrpos : 0 < bval (limbBits c) r := by rw [r1]; positivity
    have hrne := Norm.ne_nil_of_pos hrpos
    have hcap := cap_of_norm c hrne r3 (by rw [hr]; exact hb)
    have hl := List.length_pos_iff.2 hrne
    rw [if_neg (by omega), if_pos (by omega)]
    have hval : bval (limbBits c) (List.replicate (n / limbBits c) 0 ++ r) = bval (limbBits c) v * 2 ^ n := by
      rw [bval_append, bval_replicate_zero, List.length_replicate, ← hr]; ring
    refine ⟨_, rfl, hval, (LimbsOK_replicate _ _).append r2, ?_⟩
    intro _
    rw [hval, ← hr, List.length_append, List.length_replicate]
    have e : limbBits c * (n / limbBits c + r.length - 1) = limbBits c * (r.length - 1) + limbBits c * (n / limbBits c) := by
      rw [← Nat.mul_add]; congr 1
      have : ∀ a b : Nat, 0 < b → a + b - 1 = b - 1 + a := by intro a b _; omega
      exact this _ _ hl
    rw [e, pow_add]
    exact Nat.mul_le_mul_right _ (r3 hrne)
  · rw [if_neg h]
    rw [not_not.1 h] at hr
    exact ⟨r, rfl, by rw [← hr]; simp, r2, r3⟩

theorem bigPow10_spec (c : Cfg) (v : Limbs) (exp : Nat) (hv : LimbsOK (limbBits c) v) (hn : Norm (limbBits c) v)
    (hpos : 0 < bval (limbBits c) v) (hb : bval (limbBits c) v * 10 ^ exp < 2 ^ 3200) :
    ∃ r, bigPow10 c v exp = .ok r ∧ bval (limbBits c) r = bval (limbBits c) v * 10 ^ exp ∧ LimbsOK (limbBits c) r ∧
      Norm (limbBits c) r := by
  have e10 : bval (limbBits c) v * 5 ^ exp * 2 ^ exp = bval (limbBits c) v * 10 ^ exp := by
    rw [Nat.mul_assoc, ← Nat.mul_pow]
  have hle : bval (limbBits c) v * 5 ^ exp ≤ bval (limbBits c) v * 5 ^ exp * 2 ^ exp :=
    Nat.le_mul_of_pos_right _ (Nat.two_pow_pos _)
  obtain ⟨r, e, a1, a2, a3⟩ := bigPow5_spec c v exp hv hn (lt_of_le_of_lt hle (by rw [e10]; exact hb))
  unfold bigPow10
  simp only [bind, Except.bind, e]
  obtain ⟨s, e', b1, b2, b3⟩ := bigShl_spec c r exp a2 a3 (by rw [a1]; positivity) (by rw [a1, e10]; exact hb)
  exact ⟨s, e', by rw [b1, a1, e10], b2, b3⟩

/-! ### compare -/

theorem compareLoop_spec (b : Nat) : ∀ (x y : Limbs), x.length = y.length → LimbsOK b x → LimbsOK b y →
    (0 < compareLoop x y ↔ bval b y.reverse < bval b x.reverse) ∧ (compareLoop x y < 0 ↔ bval b x.reverse < bval b y.reverse) := by
  intro x
  induction x with
  | nil =>
    intro y hl _ _
    have : y = [] := List.length_eq_zero_iff.1 (by simpa using hl.symm)
    subst this; simp [compareLoop, bval]
  | cons a xs ih =>
    intro y hl hx hy
    cases y with
    | nil => simp at hl
    | cons d ys =>
      have hl' : xs.length = ys.length := by simpa using hl
      have hxs : LimbsOK b xs := fun z hz => hx z (List.mem_cons_of_mem _ hz)
      have hys : LimbsOK b ys := fun z hz => hy z (List.mem_cons_of_mem _ hz)
      have bx : bval b xs.reverse < 2 ^ (b * xs.length) := by
        have := bval_lt (b := b) (v := xs.reverse) (fun z hz => hxs z (List.mem_reverse.1 hz)); simpa using this
      have bY : bval b ys.reverse < 2 ^ (b * xs.length) := by
        have := bval_lt (b := b) (v := ys.reverse) (fun z hz => hys z (List.mem_reverse.1 hz)); simpa [hl'] using this
      obtain ⟨i1, i2⟩ := ih ys hl' hxs hys
      simp only [compareLoop, List.reverse_cons, bval_append, List.length_reverse, bval, Nat.mul_zero, Nat.add_zero]
      rw [← hl']
      generalize bval b xs.reverse = X at *
      generalize bval b ys.reverse = Y at *
      generalize 2 ^ (b * xs.length) = K at *
      rcases lt_trichotomy a d with h | h | h
      · rw [if_neg (by omega), if_pos h]
        have : K * (a + 1) ≤ K * d := Nat.mul_le_mul_left _ h
        rw [Nat.mul_add, Nat.mul_one] at this
        constructor <;> constructor <;> intro _ <;> omega
      · subst h
        rw [if_neg (by omega), if_neg (by omega), i1, i2]
        constructor <;> constructor <;> intro _ <;> omega
      · rw [if_pos h]
        have : K * (d + 1) ≤ K * a := Nat.mul_le_mul_left _ h
        rw [Nat.mul_add, Nat.mul_one] at this
        constructor <;> constructor <;> intro _ <;> omega

theorem bigCompare_spec (b : Nat) (x y : Limbs) (hx : LimbsOK b x) (hy : LimbsOK b y) (nx : Norm b x) (ny : Norm b y) :
    (0 < bigCompare x y ↔ bval b y < bval b x) ∧ (bigCompare x y < 0 ↔ bval b x < bval b y) := by
  have key : ∀ u v : Limbs, LimbsOK b u → Norm b v → u.length < v.length → bval b u < bval b v := by
    intro u v hu nv hl
    have h1 := bval_lt hu
    have h2 := nv (by intro hc; rw [hc] at hl; simp at hl)
    have h3 : 2 ^ (b * u.length) ≤ 2 ^ (b * (v.length - 1)) :=
      Nat.pow_le_pow_right (by norm_num) (Nat.mul_le_mul_left _ (by omega))
    omega
  unfold bigCompare
  by_cases h : x.length > y.length
  · rw [if_pos h]
    have := key y x hy nx h
    constructor <;> constructor <;> intro _ <;> omega
  · rw [if_neg h]
    by_cases h' : x.length < y.length
    · rw [if_pos h']
      have := key x y hx ny h'
      constructor <;> constructor <;> intro _ <;> omega
    · rw [if_neg h']
      have := compareLoop_spec b x.reverse y.reverse (by simp; omega) (fun z hz => hx z (List.mem_reverse.1 hz))
        (fun z hz => hy z (List.mem_reverse.1 hz))
      simpa using this

/-! ### bigint(uint64_t) -/

theorem bigOfU64_spec (c : Cfg) (x : Nat) (h : x < 2 ^ 64) :
    bval (limbBits c) (bigOfU64 c x) = x ∧ LimbsOK (limbBits c) (bigOfU64 c x) ∧ Norm (limbBits c) (bigOfU64 c x) := by
  unfold bigOfU64 limbBits
  cases c.limb64
  · simp only [Bool.false_eq_true, if_false]
    have hok : LimbsOK 32 [x % 2 ^ 32, x / 2 ^ 32 % 2 ^ 32] := by
      intro z hz
      simp at hz
      rcases hz with rfl | rfl <;> omega
    obtain ⟨a1, a2, _, a3⟩ := normalize_spec 32 _ hok
    refine ⟨?_, a2, a3⟩
    rw [a1]; simp only [bval]; omega
  · simp only [if_true]
    have hok : LimbsOK 64 [x % 2 ^ 64] := by
      intro z hz
      simp at hz
      omega
    obtain ⟨a1, a2, _, a3⟩ := normalize_spec 64 _ hok
    refine ⟨?_, a2, a3⟩
    rw [a1]; simp only [bval]; omega

/-! ### hi64 and bit_length -/

theorem lz_facts (x : Nat) (h0 : x ≠ 0) (h : x < 2 ^ 64) :
    ∃ s, s ≤ 63 ∧ (∀ c, leadingZeroes c x = .ok s) ∧ 2 ^ 63 ≤ x * 2 ^ s ∧ x * 2 ^ s < 2 ^ 64 := by
  obtain ⟨a, b, _⟩ := normalise x h0 h
  exact ⟨63 - Nat.log2 x, by omega, fun c => leadingZeroes_eq c x h0 h, a, b⟩

theorem hiOne (c : Cfg) (x : Nat) (h0 : x ≠ 0) (h : x < 2 ^ 64) :
    ∃ s, s ≤ 63 ∧ leadingZeroes c x = .ok s ∧ uint64Hi64One c x = .ok (x * 2 ^ s, false) ∧
      2 ^ 63 ≤ x * 2 ^ s ∧ x * 2 ^ s < 2 ^ 64 := by
  obtain ⟨s, h1, h2, h3, h4⟩ := lz_facts x h0 h
  refine ⟨s, h1, h2 c, ?_, h3, h4⟩
  unfold uint64Hi64One
  simp only [bind, Except.bind, pure, Except.pure, h2 c]
  unfold shl64
  rw [if_pos (by omega), Nat.mod_eq_of_lt h4]

theorem hiTwo (c : Cfg) (r0 r1 : Nat) (h0 : r0 ≠ 0) (h : r0 < 2 ^ 64) (h1 : r1 < 2 ^ 64) :
    ∃ s m t, s ≤ 63 ∧ leadingZeroes c r0 = .ok s ∧ uint64Hi64Two c r0 r1 = .ok (m, decide (t ≠ 0)) ∧
      r0 * 2 ^ 64 + r1 = 2 ^ (64 - s) * m + t ∧ t < 2 ^ (64 - s) ∧ 2 ^ 63 ≤ m ∧ m < 2 ^ 64 := by
  obtain ⟨s, hs, hlz, a, b⟩ := lz_facts r0 h0 h
  unfold uint64Hi64Two
  simp only [bind, Except.bind, pure, Except.pure, hlz c]
  by_cases hs0 : s = 0
  · rw [if_pos hs0]
    subst hs0
    refine ⟨0, r0, r1, by omega, rfl, ?_, by omega, by omega, by omega, by omega⟩
    congr 2
    by_cases hr : r1 = 0 <;> simp [hr]
  · rw [if_neg hs0]
    unfold shl64 shr64
    rw [if_pos (by omega), if_pos (by omega), if_pos (by omega)]
    simp only
    have hsplit : 2 ^ 64 = 2 ^ (64 - s) * 2 ^ s := by rw [← pow_add]; congr 1; omega
    have e64 : 64 - (64 - s) = s := by omega
    have hdm := Nat.div_add_mod r1 (2 ^ (64 - s))
    have hml := Nat.mod_lt r1 (Nat.two_pow_pos (64 - s))
    have hq : r1 / 2 ^ (64 - s) < 2 ^ s := by
      rw [Nat.div_lt_iff_lt_mul (Nat.two_pow_pos _), Nat.mul_comm, ← hsplit]; exact h1
    have hor : (r0 * 2 ^ s % 2 ^ 64 ||| r1 / 2 ^ (64 - s)) = r0 * 2 ^ s + r1 / 2 ^ (64 - s) := by
      rw [Nat.mod_eq_of_lt b, or_parts' _ _ _ hq]
    have htr : (r1 * 2 ^ s % 2 ^ 64 != 0) = decide (r1 % 2 ^ (64 - s) ≠ 0) := by
      have : r1 * 2 ^ s % 2 ^ 64 = (r1 % 2 ^ (64 - s)) * 2 ^ s := by rw [hsplit, Nat.mul_mod_mul_right]
      rw [this]
      by_cases hz : r1 % 2 ^ (64 - s) = 0 <;> simp [hz]
    refine ⟨s, r0 * 2 ^ s + r1 / 2 ^ (64 - s), r1 % 2 ^ (64 - s), hs, rfl, ?_, ?_, hml, ?_, ?_⟩
    · rw [hor, htr]
    · have : 2 ^ (64 - s) * (r0 * 2 ^ s + r1 / 2 ^ (64 - s)) = r0 * (2 ^ (64 - s) * 2 ^ s) + 2 ^ (64 - s) * (r1 / 2 ^ (64 - s)) := by
        ring
      rw [this, ← hsplit]; omega
    · exact le_trans a (Nat.le_add_right _ _)
    · have h3 : (r0 + 0) * 2 ^ s ≤ (2 ^ (64 - s) - 1) * 2 ^ s := by
        apply Nat.mul_le_mul_right
        have : r0 < 2 ^ (64 - s) := by
          by_contra hc
          have : 2 ^ (64 - s) * 2 ^ s ≤ r0 * 2 ^ s := Nat.mul_le_mul_right _ (by omega)
          rw [← hsplit] at this; omega
        omega
      rw [Nat.sub_mul, ← hsplit] at h3
      simp only [Nat.add_zero, Nat.one_mul] at h3
      have : 2 ^ s ≤ 2 ^ 64 := Nat.pow_le_pow_right (by norm_num) (by omega)
      omega

/-- What `hi64` and `bit_length` give together: the value is `m.xxx · 2^(L-64)` with `m` the top 64 bits. -/
structure TopBits (V m : Nat) (tr : Bool) (L : Nat) : Prop where
  lo : 2 ^ 63 ≤ m
  hi : m < 2 ^ 64
  le : m * 2 ^ L ≤ V * 2 ^ 64
  lt : V * 2 ^ 64 < (m + 1) * 2 ^ L
  tr_iff : tr = true ↔ m * 2 ^ L < V * 2 ^ 64

theorem topBits_combine {V m low K D R t : Nat} {tr : Bool} {k d : Nat} (hK : K = 2 ^ k) (hD : D = 2 ^ d)
    (hV : V = low + K * R) (hlow : low < K) (hR : R = D * m + t) (ht : t < D) (hm1 : 2 ^ 63 ≤ m) (hm2 : m < 2 ^ 64)
    (htr : tr = true ↔ (t ≠ 0 ∨ low ≠ 0)) : TopBits V m tr (k + d + 64) := by
  have hKp : 0 < K := by rw [hK]; positivity
  have hDp : 0 < D := by rw [hD]; positivity
  have e : (2 : Nat) ^ (k + d + 64) = K * D * 2 ^ 64 := by rw [pow_add, pow_add, ← hK, ← hD]
  have hVe : V = K * D * m + (low + K * t) := by rw [hV, hR]; ring
  have hlt : low + K * t < K * D := by
    have : K * (t + 1) ≤ K * D := Nat.mul_le_mul_left _ ht
    rw [Nat.mul_add, Nat.mul_one] at this; omega
  have c1 : m * (K * D * 2 ^ 64) = K * D * m * 2 ^ 64 := by ring
  have c2 : (m + 1) * (K * D * 2 ^ 64) = (K * D * m + K * D) * 2 ^ 64 := by ring
  refine ⟨hm1, hm2, ?_, ?_, ?_⟩
  · rw [e, c1]; exact Nat.mul_le_mul_right _ (by omega)
  · rw [e, c2]; exact Nat.mul_lt_mul_of_pos_right (by omega) (by norm_num)
  · rw [htr, e, c1]
    constructor
    · intro h
      apply Nat.mul_lt_mul_of_pos_right _ (by norm_num)
      rcases h with h | h
      · have : 0 < K * t := Nat.mul_pos hKp (by omega)
        omega
      · omega
    · intro h
      have := Nat.lt_of_mul_lt_mul_right h
      by_contra hc
      push Not at hc
      rw [hc.1, hc.2] at hVe
      omega

theorem nonzeroFrom_iff (b : Nat) : ∀ (v : Limbs), (v.any (· != 0)) = true ↔ bval b v ≠ 0 := by
  intro v
  induction v with
  | nil => simp [bval]
  | cons x xs ih =>
    simp only [List.any_cons, Bool.or_eq_true, ih, bval, bne_iff_ne]
    have hp := Nat.two_pow_pos b
    constructor
    · rintro (h | h)
      · omega
      · have := Nat.mul_pos hp (Nat.pos_of_ne_zero h); omega
    · intro h
      by_contra hc
      push Not at hc
      rw [hc.1, hc.2] at h; simp at h

theorem norm_top {b : Nat} {low : Limbs} {r0 : Nat} (hok : LimbsOK b low) (hn : Norm b (low ++ [r0])) : r0 ≠ 0 := by
  intro h
  have := hn (by simp)
  rw [bval_append, h] at this
  simp [bval] at this
  have := bval_lt hok
  omega

theorem rindex_append (low : Limbs) (u : Limbs) (i : Nat) (h : i < u.length) : rindex (low ++ u) i = rindex u i := by
  unfold rindex tableGet
  rw [if_pos (by simp; omega), if_pos h]
  rw [List.getElem?_append_right (by rw [List.length_append]; omega)]
  have e : (low ++ u).length - i - 1 - low.length = u.length - i - 1 := by rw [List.length_append]; omega
  rw [e]

theorem lz_unique (c : Cfg) (x s : Nat) (h1 : 2 ^ 63 ≤ x * 2 ^ s) (h2 : x * 2 ^ s < 2 ^ 64) : leadingZeroes c x = .ok s := by
  have hx0 : x ≠ 0 := by intro h; rw [h] at h1; simp at h1
  have hx : x < 2 ^ 64 := lt_of_le_of_lt (Nat.le_mul_of_pos_right _ (Nat.two_pow_pos s)) h2
  obtain ⟨s', _, e, h3, h4⟩ := lz_facts x hx0 hx
  rw [e c]
  congr 1
  have key : ∀ a b : Nat, 2 ^ 63 ≤ x * 2 ^ a → x * 2 ^ b < 2 ^ 64 → b ≤ a := by
    intro a b ha hb
    by_contra hc
    have e : 2 ^ b = 2 ^ a * 2 ^ (b - a) := by rw [← pow_add]; congr 1; omega
    have h2' : 2 ^ 1 ≤ 2 ^ (b - a) := Nat.pow_le_pow_right (by norm_num) (by omega)
    have : x * 2 ^ a * 2 ^ 1 ≤ x * 2 ^ a * 2 ^ (b - a) := Nat.mul_le_mul_left _ h2'
    rw [Nat.mul_assoc x _ (2 ^ (b - a)), ← e] at this
    omega
  exact le_antisymm (key s s' h1 h4) (key s' s h3 h2)

theorem split_tail (v : Limbs) (k : Nat) (h : k ≤ v.length) : ∃ low u, v = low ++ u ∧ u.length = k ∧ low.length = v.length - k :=
  ⟨v.take (v.length - k), v.drop (v.length - k), (List.take_append_drop _ _).symm, by rw [List.length_drop]; omega,
    by rw [List.length_take]; omega⟩

theorem nonzeroFrom_append (b : Nat) (low u : Limbs) : nonzeroFrom (low ++ u) u.length = decide (bval b low ≠ 0) := by
  unfold nonzeroFrom
  have : (low ++ u).take ((low ++ u).length - u.length) = low := by
    rw [List.length_append, Nat.add_sub_cancel, List.take_left']
    rfl
  rw [this, Bool.eq_iff_iff, nonzeroFrom_iff b low]
  simp

theorem topBits_exact (x s : Nat) (hs : s ≤ 64) (h1 : 2 ^ 63 ≤ x * 2 ^ s) (h2 : x * 2 ^ s < 2 ^ 64) :
    TopBits x (x * 2 ^ s) false (64 - s) := by
  have e : x * 2 ^ s * 2 ^ (64 - s) = x * 2 ^ 64 := by
    rw [Nat.mul_assoc, ← pow_add]; congr 2; omega
  refine ⟨h1, h2, e.le, ?_, by rw [e]; simp⟩
  rw [Nat.add_mul, e, Nat.one_mul]
  have := Nat.two_pow_pos (64 - s); omega

/-- `hi64` and `bit_length` of a normalised nonzero big integer. -/
theorem hi64_spec (c : Cfg) (v : Limbs) (hv : LimbsOK (limbBits c) v) (hn : Norm (limbBits c) v)
    (hpos : 0 < bval (limbBits c) v) :
    ∃ m tr L, hi64 c v = .ok (m, tr) ∧ bitLength c v = .ok (L : Nat) ∧ TopBits (bval (limbBits c) v) m tr L := by
  have hne := Norm.ne_nil_of_pos hpos
  have hl := List.length_pos_iff.2 hne
  obtain ⟨low0, u0, hu0, hul0, _⟩ := split_tail v 1 (by omega)
  match u0, hul0 with
  | [r0], _ =>
  have hok0 : LimbsOK (limbBits c) low0 := fun z hz => hv z (by rw [hu0]; exact List.mem_append_left _ hz)
  have hr0 : r0 < 2 ^ limbBits c := hv r0 (by rw [hu0]; simp)
  have hr0n : r0 ≠ 0 := norm_top hok0 (by rw [← hu0]; exact hn)
  have hidx0 : rindex v 0 = .ok r0 := by rw [hu0, rindex_append _ _ _ (by simp)]; rfl
  by_cases h64 : c.limb64
  · have hb : limbBits c = 64 := by unfold limbBits; rw [if_pos h64]
    rw [hb] at hr0 hv hn hpos ⊢
    have hlen : ∀ s, s ≤ 63 → leadingZeroes c r0 = .ok s → bitLength c v = .ok (((64 * v.length - s : Nat)) : Int) := by
      intro s hs hlz
      unfold bitLength ctlz
      rw [if_neg (by omega), hidx0]
      simp only [bind, Except.bind, pure, Except.pure]
      rw [if_pos h64, hlz, hb]
      simp only
      congr 1
      omega
    unfold hi64
    rw [if_pos h64, if_neg (by omega)]
    by_cases h1 : v.length = 1
    · rw [if_pos h1]
      obtain ⟨s, hs, hlz, e, a, b⟩ := hiOne c r0 hr0n hr0
      refine ⟨r0 * 2 ^ s, false, 64 * v.length - s, ?_, hlen s hs hlz, ?_⟩
      · simp only [bind, Except.bind, hidx0, e]
      · have : low0 = [] := by
          rw [hu0] at h1; simpa using h1
        rw [h1, hu0, this]
        simpa [bval] using topBits_exact r0 s (by omega) a b
    · rw [if_neg h1]
      obtain ⟨low, u, hu, hul, hll⟩ := split_tail v 2 (by omega)
      match u, hul with
      | [r1, r0'], _ =>
      have hidx0' : rindex v 0 = .ok r0' := by rw [hu, rindex_append _ _ _ (by simp)]; rfl
      have hidx1 : rindex v 1 = .ok r1 := by rw [hu, rindex_append _ _ _ (by simp)]; rfl
      have er : r0 = r0' := by rw [hidx0] at hidx0'; exact Except.ok.inj hidx0'
      subst er
      have hr1 : r1 < 2 ^ 64 := hv r1 (by rw [hu]; simp)
      have hok : LimbsOK 64 low := fun z hz => hv z (by rw [hu]; exact List.mem_append_left _ hz)
      obtain ⟨s, m, t, hs, hlz, e, eR, ht, hm1, hm2⟩ := hiTwo c r0 r1 hr0n hr0 hr1
      have hnz : nonzeroFrom v 2 = decide (bval 64 low ≠ 0) := by rw [hu]; exact nonzeroFrom_append 64 low [r1, r0]
      refine ⟨m, (decide (t ≠ 0) || decide (bval 64 low ≠ 0)), 64 * v.length - s, ?_, hlen s hs hlz, ?_⟩
      · simp only [bind, Except.bind, pure, Except.pure, hidx0, hidx1, e, hnz]
      · have hL : 64 * v.length - s = 64 * low.length + (64 - s) + 64 := by omega
        rw [hL]
        refine topBits_combine (K := 2 ^ (64 * low.length)) (D := 2 ^ (64 - s)) rfl rfl (low := bval 64 low)
          (R := r0 * 2 ^ 64 + r1) (t := t) ?_ (bval_lt hok) eR ht hm1 hm2 (by simp)
        rw [hu, bval_append]; simp only [bval]; ring
  · have hb : limbBits c = 32 := by unfold limbBits; rw [if_neg h64]
    rw [hb] at hr0 hv hn hpos ⊢
    -- leading zeros of the top limb
    obtain ⟨s, hs63, hlz, sa, sb⟩ := lz_facts (r0 * 2 ^ 32) (by omega) (by omega)
    have hs : s ≤ 31 := by
      by_contra hc
      have h1 : 2 ^ 32 ≤ 2 ^ s := Nat.pow_le_pow_right (by norm_num) (by omega)
      have h2 : 1 * 2 ^ 32 * 2 ^ 32 ≤ r0 * 2 ^ 32 * 2 ^ s := Nat.mul_le_mul (Nat.mul_le_mul_right _ (by omega)) h1
      omega
    have hr0s : (r0 + 1) * 2 ^ s ≤ 2 ^ 32 := by
      have e : 2 ^ 32 = 2 ^ (32 - s) * 2 ^ s := by rw [← pow_add]; congr 1; omega
      have : r0 < 2 ^ (32 - s) := by
        by_contra hc
        have h1 : 2 ^ (32 - s) * 2 ^ s ≤ r0 * 2 ^ s := Nat.mul_le_mul_right _ (by omega)
        rw [← e] at h1
        have h2 : r0 * 2 ^ 32 * 2 ^ s = r0 * 2 ^ s * 2 ^ 32 := by ring
        omega
      rw [e]; exact Nat.mul_le_mul_right _ this
    have hlen : bitLength c v = .ok (((32 * v.length - s : Nat)) : Int) := by
      unfold bitLength ctlz
      rw [if_neg (by omega), hidx0]
      simp only [bind, Except.bind, pure, Except.pure]
      rw [if_neg h64, Nat.mod_eq_of_lt (by omega), hlz c, hb]
      simp only
      congr 1
      omega
    have hlz0 : leadingZeroes c r0 = .ok (s + 32) := by
      have e : r0 * 2 ^ (s + 32) = r0 * 2 ^ 32 * 2 ^ s := by rw [pow_add]; ring
      exact lz_unique c r0 (s + 32) (by rw [e]; exact sa) (by rw [e]; exact sb)
    have e0 : r0 * 2 ^ (s + 32) = r0 * 2 ^ 32 * 2 ^ s := by rw [pow_add]; ring
    unfold hi64
    rw [if_neg h64, if_neg (by omega)]
    by_cases h1 : v.length = 1
    · rw [if_pos h1]
      obtain ⟨s', hs', hlz', e, a, b⟩ := hiOne c r0 hr0n (by omega)
      have : s' = s + 32 := by rw [hlz0] at hlz'; exact (Except.ok.inj hlz').symm
      subst this
      refine ⟨r0 * 2 ^ (s + 32), false, 32 * v.length - s, ?_, hlen, ?_⟩
      · simp only [bind, Except.bind, hidx0, e]
      · have hl0 : low0 = [] := by
          rw [hu0] at h1; simpa using h1
        have hT := topBits_exact r0 (s + 32) (by omega) a b
        have hL : 32 * v.length - s = 64 - (s + 32) := by omega
        rw [hL, hu0, hl0]
        simpa [bval] using hT
    · rw [if_neg h1]
      by_cases h2 : v.length = 2
      · rw [if_pos h2]
        obtain ⟨low, u, hu, hul, hll⟩ := split_tail v 2 (by omega)
        match u, hul with
        | [r1, r0'], _ =>
        have hidx0' : rindex v 0 = .ok r0' := by rw [hu, rindex_append _ _ _ (by simp)]; rfl
        have hidx1 : rindex v 1 = .ok r1 := by rw [hu, rindex_append _ _ _ (by simp)]; rfl
        have er : r0 = r0' := by rw [hidx0] at hidx0'; exact Except.ok.inj hidx0'
        subst er
        have hr1 : r1 < 2 ^ 32 := hv r1 (by rw [hu]; simp)
        have hR : (r0 * 2 ^ 32 % 2 ^ 64 ||| r1) = r0 * 2 ^ 32 + r1 := by
          rw [Nat.mod_eq_of_lt (by omega), or_parts' _ _ _ hr1]
        obtain ⟨s', hs', hlz', e, a, b⟩ := hiOne c (r0 * 2 ^ 32 + r1) (by omega) (by omega)
        have hlzR : leadingZeroes c (r0 * 2 ^ 32 + r1) = .ok s := by
          apply lz_unique
          · exact le_trans sa (Nat.mul_le_mul_right _ (by omega))
          · have q1 : (r0 * 2 ^ 32 + r1) * 2 ^ s < (r0 + 1) * 2 ^ 32 * 2 ^ s :=
              Nat.mul_lt_mul_of_pos_right (by omega) (Nat.two_pow_pos s)
            have q2 : (r0 + 1) * 2 ^ 32 * 2 ^ s = (r0 + 1) * 2 ^ s * 2 ^ 32 := by ring
            have q3 : (r0 + 1) * 2 ^ s * 2 ^ 32 ≤ 2 ^ 32 * 2 ^ 32 := Nat.mul_le_mul_right _ hr0s
            rw [← pow_add] at q3
            exact lt_of_lt_of_le q1 (by rw [q2]; exact q3)
        have : s' = s := by rw [hlzR] at hlz'; exact (Except.ok.inj hlz').symm
        subst this
        refine ⟨(r0 * 2 ^ 32 + r1) * 2 ^ s', false, 32 * v.length - s', ?_, hlen, ?_⟩
        · simp only [bind, Except.bind, hidx0, hidx1, uint32Hi64Two, hR, e]
        · have hl0 : low = [] := by
            rw [hu] at h2; simpa using h2
          have hT := topBits_exact (r0 * 2 ^ 32 + r1) s' (by omega) a b
          have hL : 32 * v.length - s' = 64 - s' := by omega
          rw [hL, hu, hl0]
          have : bval 32 ([] ++ [r1, r0]) = r0 * 2 ^ 32 + r1 := by simp [bval]; ring
          rw [this]; exact hT
      · rw [if_neg h2]
        obtain ⟨low, u, hu, hul, hll⟩ := split_tail v 3 (by omega)
        match u, hul with
        | [r2, r1, r0'], _ =>
        have hidx0' : rindex v 0 = .ok r0' := by rw [hu, rindex_append _ _ _ (by simp)]; rfl
        have hidx1 : rindex v 1 = .ok r1 := by rw [hu, rindex_append _ _ _ (by simp)]; rfl
        have hidx2 : rindex v 2 = .ok r2 := by rw [hu, rindex_append _ _ _ (by simp)]; rfl
        have er : r0 = r0' := by rw [hidx0] at hidx0'; exact Except.ok.inj hidx0'
        subst er
        have hr1 : r1 < 2 ^ 32 := hv r1 (by rw [hu]; simp)
        have hr2 : r2 < 2 ^ 32 := hv r2 (by rw [hu]; simp)
        have hok : LimbsOK 32 low := fun z hz => hv z (by rw [hu]; exact List.mem_append_left _ hz)
        have hR : (r1 * 2 ^ 32 % 2 ^ 64 ||| r2) = r1 * 2 ^ 32 + r2 := by
          rw [Nat.mod_eq_of_lt (by omega), or_parts' _ _ _ hr2]
        obtain ⟨s', m, t, hs', hlz', e, eR, ht, hm1, hm2⟩ := hiTwo c r0 (r1 * 2 ^ 32 + r2) hr0n (by omega) (by omega)
        have : s' = s + 32 := by rw [hlz0] at hlz'; exact (Except.ok.inj hlz').symm
        subst this
        have hnz : nonzeroFrom v 3 = decide (bval 32 low ≠ 0) := by rw [hu]; exact nonzeroFrom_append 32 low [r2, r1, r0]
        refine ⟨m, (decide (t ≠ 0) || decide (bval 32 low ≠ 0)), 32 * v.length - s, ?_, hlen, ?_⟩
        · simp only [bind, Except.bind, pure, Except.pure, hidx0, hidx1, hidx2, uint32Hi64Three, hR, e, hnz]
        · have hL : 32 * v.length - s = 32 * low.length + (64 - (s + 32)) + 64 := by omega
          rw [hL]
          refine topBits_combine (K := 2 ^ (32 * low.length)) (D := 2 ^ (64 - (s + 32))) rfl rfl (low := bval 32 low)
            (R := r0 * 2 ^ 64 + (r1 * 2 ^ 32 + r2)) (t := t) ?_ (bval_lt hok) eR ht hm1 hm2 (by simp)
          rw [hu, bval_append]; simp only [bval]; ring

end FastFloat
