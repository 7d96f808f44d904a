import Verif.Proofs.IntParse
/-
# The `uint8_t` and `uint16_t` fast paths
-/
set_option linter.unusedSimpArgs false

namespace FastFloat
open IntSpec

/-! ### Trailing zeros -/

theorem ctzNative_eq : ∀ (n j m : Nat), j < n → ctzNative n (2 ^ j * (2 * m + 1)) = j := by
  intro n
  induction n with
  | zero => intro j m h; omega
  | succ n ih =>
    intro j m h
    unfold ctzNative
    cases j with
    | zero => rw [if_pos (by omega)]
    | succ j =>
      have e : 2 ^ (j + 1) * (2 * m + 1) = 2 * (2 ^ j * (2 * m + 1)) := by rw [pow_succ]; ring
      rw [e, if_neg (by omega), Nat.mul_div_cancel_left _ (by norm_num), ih j m (by omega)]
      omega

theorem and_mask (x k : Nat) : x &&& (2 ^ k - 1) = x % 2 ^ k := Nat.and_two_pow_sub_one_eq_mod x k

/-- One stage of the generic trailing zero count: test the low `k` bits, shift and set a result bit if they are all zero. -/
def ctzStage (k bit : Nat) (a : Nat × Nat) : Nat × Nat := if a.1 &&& (2 ^ k - 1) = 0 then (a.1 / 2 ^ k, a.2 ||| bit) else a

theorem ctzGeneric_stages (x : Nat) (hx : x ≠ 0) :
    countrZeroGeneric32 x = (ctzStage 1 1 (ctzStage 2 2 (ctzStage 4 4 (ctzStage 8 8 (ctzStage 16 16 (x, 0)))))).2 := by
  have h1 : (if x &&& 0xFFFF = 0 then (x / 2 ^ 16, 16) else (x, 0)) = ctzStage 16 16 (x, 0) := by
    unfold ctzStage; simp
  obtain ⟨a, ha⟩ : ∃ a, ctzStage 16 16 (x, 0) = a := ⟨_, rfl⟩
  obtain ⟨b, hb⟩ : ∃ b, ctzStage 8 8 a = b := ⟨_, rfl⟩
  obtain ⟨d, hd⟩ : ∃ d, ctzStage 4 4 b = d := ⟨_, rfl⟩
  obtain ⟨e, he⟩ : ∃ e, ctzStage 2 2 d = e := ⟨_, rfl⟩
  have h2 : (if a.1 &&& 0xFF = 0 then (a.1 / 2 ^ 8, a.2 ||| 8) else a) = b := hb
  have h3 : (if b.1 &&& 0xF = 0 then (b.1 / 2 ^ 4, b.2 ||| 4) else b) = d := hd
  have h4 : (if d.1 &&& 0x3 = 0 then (d.1 / 2 ^ 2, d.2 ||| 2) else d) = e := he
  unfold countrZeroGeneric32
  rw [if_neg hx]
  simp only [h1, ha, h2, h3, h4, hb, hd, he]
  unfold ctzStage
  by_cases h5 : e.1 &&& 1 = 0
  · rw [if_pos h5, if_pos (show e.1 &&& 2 ^ 1 - 1 = 0 from h5)]
  · rw [if_neg h5, if_neg (show ¬ (e.1 &&& 2 ^ 1 - 1 = 0) from h5)]

theorem ctzStage_pos {k bit w acc : Nat} (h : w % 2 ^ k = 0) : ctzStage k bit (w, acc) = (w / 2 ^ k, acc ||| bit) := by
  unfold ctzStage; rw [Nat.and_two_pow_sub_one_eq_mod, if_pos h]

theorem ctzStage_neg {k bit w acc : Nat} (h : w % 2 ^ k ≠ 0) : ctzStage k bit (w, acc) = (w, acc) := by
  unfold ctzStage; rw [Nat.and_two_pow_sub_one_eq_mod, if_neg h]

theorem ctzGeneric_7 (m : Nat) : countrZeroGeneric32 (2 ^ 7 * (2 * m + 1)) = 7 := by
  rw [ctzGeneric_stages _ (by positivity), ctzStage_neg (k := 16) (by omega), ctzStage_neg (k := 8) (by omega), ctzStage_pos (k := 4) (by omega), ctzStage_pos (k := 2) (by omega),
    ctzStage_pos (k := 1) (by omega)]
  rfl

theorem ctzGeneric_15 (m : Nat) : countrZeroGeneric32 (2 ^ 15 * (2 * m + 1)) = 15 := by
  rw [ctzGeneric_stages _ (by positivity), ctzStage_neg (k := 16) (by omega), ctzStage_pos (k := 8) (by omega), ctzStage_pos (k := 4) (by omega), ctzStage_pos (k := 2) (by omega),
    ctzStage_pos (k := 1) (by omega)]
  rfl

theorem ctzGeneric_23 (m : Nat) : countrZeroGeneric32 (2 ^ 23 * (2 * m + 1)) = 23 := by
  rw [ctzGeneric_stages _ (by positivity), ctzStage_pos (k := 16) (by omega), ctzStage_neg (k := 8) (by omega), ctzStage_pos (k := 4) (by omega), ctzStage_pos (k := 2) (by omega),
    ctzStage_pos (k := 1) (by omega)]
  rfl

theorem ctzGeneric_31 (m : Nat) : countrZeroGeneric32 (2 ^ 31 * (2 * m + 1)) = 31 := by
  rw [ctzGeneric_stages _ (by positivity), ctzStage_pos (k := 16) (by omega), ctzStage_pos (k := 8) (by omega), ctzStage_pos (k := 4) (by omega), ctzStage_pos (k := 2) (by omega),
    ctzStage_pos (k := 1) (by omega)]
  rfl

theorem countr_eq (c : Cfg) {j : Nat} (h : j = 7 ∨ j = 15 ∨ j = 23 ∨ j = 31) (m : Nat) : countrZero32 c (2 ^ j * (2 * m + 1)) = j := by
  unfold countrZero32
  by_cases hc : c.constEval = true
  · rw [if_pos hc]
    rcases h with rfl | rfl | rfl | rfl
    · exact ctzGeneric_7 m
    · exact ctzGeneric_15 m
    · exact ctzGeneric_23 m
    · exact ctzGeneric_31 m
  · rw [if_neg hc, if_neg (by positivity)]
    exact ctzNative_eq 32 j m (by omega)

theorem countr_zero (c : Cfg) : countrZero32 c 0 = 32 := by
  unfold countrZero32 countrZeroGeneric32; simp

/-! ### The non-digit mask -/

/-- The mask with the high bit of every non-digit byte up to and including the first set. -/
def swarMask (l : List Nat) : Nat :=
  ((leWord 1 l + rep 0x46 l.length) % 2 ^ (8 * l.length) ||| (leWord 1 l + 2 ^ (8 * l.length) - rep 0x30 l.length) % 2 ^ (8 * l.length)) &&&
    rep 0x80 l.length

theorem byte_mask (y : Nat) (h : y < 2 ^ 8) : y &&& 0x80 = if y < 128 then 0 else 128 := by
  have : ∀ y : Fin 256, (y.val &&& 0x80 = if y.val < 128 then 0 else 128) := by decide +kernel
  exact this ⟨y, h⟩

theorem swarMask_cons (b : Nat) (l : List Nat) (hb : b < 256) :
    (IsDig b → swarMask (b :: l) = 2 ^ 8 * swarMask l) ∧ (¬ IsDig b → ∃ X, swarMask (b :: l) = 128 + 2 ^ 8 * X) := by
  unfold swarMask
  simp only [leWord, List.length_cons, rep, Nat.mul_add, Nat.mul_one, pow_add]
  rw [show 2 ^ (8 * l.length) * 2 ^ 8 = 2 ^ 8 * 2 ^ (8 * l.length) by ring]
  have hSP : rep 0x30 l.length < 2 ^ (8 * l.length) := by
    have : ∀ n, rep 0x30 n < 2 ^ (8 * n) := by
      intro n
      induction n with
      | zero => simp [rep]
      | succ n ih => simp only [rep, Nat.mul_add, Nat.mul_one, pow_add]; omega
    exact this _
  obtain ⟨P, hP⟩ : ∃ P, 2 ^ (8 * l.length) = P := ⟨_, rfl⟩
  obtain ⟨W, hW⟩ : ∃ W, leWord 1 l = W := ⟨_, rfl⟩
  obtain ⟨R, hR⟩ : ∃ R, rep 0x46 l.length = R := ⟨_, rfl⟩
  obtain ⟨S, hS⟩ : ∃ S, rep 0x30 l.length = S := ⟨_, rfl⟩
  have hPp : 0 < P := by rw [← hP]; positivity
  rw [hP, hS] at hSP
  rw [hP, hW, hR, hS]
  have e1 : (b + 2 ^ 8 * W + (70 + 2 ^ 8 * R)) % (2 ^ 8 * P) =
      (b + 70) % 2 ^ 8 + 2 ^ 8 * ((W + R + (b + 70) / 2 ^ 8) % P) := by
    rw [Nat.mod_mul]
    congr 1
    · omega
    · congr 2; omega
  have e2 : (b + 2 ^ 8 * W + 2 ^ 8 * P - (48 + 2 ^ 8 * S)) % (2 ^ 8 * P) =
      (b + 208) % 2 ^ 8 + 2 ^ 8 * ((W + P - S + (b + 208) / 2 ^ 8 - 1) % P) := by
    rw [Nat.mod_mul]
    congr 1
    · omega
    · congr 2; omega
  rw [e1, e2, or_split _ _ _ _ 8 (Nat.mod_lt _ (by norm_num)) (Nat.mod_lt _ (by norm_num)),
    and_split _ _ _ _ 8 (Nat.or_lt_two_pow (Nat.mod_lt _ (by norm_num)) (Nat.mod_lt _ (by norm_num))) (by norm_num),
    Nat.and_or_distrib_right]
  rw [byte_mask ((b + 70) % 2 ^ 8) (Nat.mod_lt _ (by norm_num)), byte_mask ((b + 208) % 2 ^ 8) (Nat.mod_lt _ (by norm_num))]
  constructor
  · intro hd
    unfold IsDig at hd
    have q1 : (b + 70) / 2 ^ 8 = 0 := by omega
    have q2 : (b + 208) / 2 ^ 8 = 1 := by omega
    rw [q1, q2, Nat.add_sub_cancel, if_pos (by omega), if_pos (by omega), Nat.add_zero]
    simp
  · intro hd
    unfold IsDig at hd
    refine ⟨((W + R + (b + 70) / 2 ^ 8) % P ||| (W + P - S + (b + 208) / 2 ^ 8 - 1) % P) &&& rep 128 l.length, ?_⟩
    congr 1
    rcases Nat.lt_or_ge ((b + 70) % 2 ^ 8) 128 with h | h
    · rw [if_pos h, if_neg (by omega)]; rfl
    · rw [if_neg (by omega)]; split <;> rfl

/-- The number of leading digits among four bytes, computed by trailing zeros of the mask. -/
theorem maskCount (c : Cfg) (b0 b1 b2 b3 : Nat) (h0 : b0 < 256) (h1 : b1 < 256) (h2 : b2 < 256) (h3 : b3 < 256) :
    (if countrZero32 c (swarMask [b0, b1, b2, b3]) = 32 then 4 else countrZero32 c (swarMask [b0, b1, b2, b3]) / 2 ^ 3) =
      (brun 10 [b0, b1, b2, b3]).length := by
  have hd : ∀ u, digit u < 10 ↔ IsDig u := fun u => digit_lt_ten
  by_cases d0 : IsDig b0
  swap
  · obtain ⟨X, hX⟩ := (swarMask_cons b0 [b1, b2, b3] h0).2 d0
    rw [hX, show 128 + 2 ^ 8 * X = 2 ^ 7 * (2 * X + 1) by ring, countr_eq c (by simp) X, (brun_cons_neg (by rw [hd]; exact d0)).1]; rfl
  rw [(swarMask_cons b0 [b1, b2, b3] h0).1 d0, (brun_cons_pos (by rw [hd]; exact d0)).1]
  by_cases d1 : IsDig b1
  swap
  · obtain ⟨X, hX⟩ := (swarMask_cons b1 [b2, b3] h1).2 d1
    rw [hX, show 2 ^ 8 * (128 + 2 ^ 8 * X) = 2 ^ 15 * (2 * X + 1) by ring, countr_eq c (by simp) X, (brun_cons_neg (by rw [hd]; exact d1)).1]; rfl
  rw [(swarMask_cons b1 [b2, b3] h1).1 d1, (brun_cons_pos (by rw [hd]; exact d1)).1]
  by_cases d2 : IsDig b2
  swap
  · obtain ⟨X, hX⟩ := (swarMask_cons b2 [b3] h2).2 d2
    rw [hX, show 2 ^ 8 * (2 ^ 8 * (128 + 2 ^ 8 * X)) = 2 ^ 23 * (2 * X + 1) by ring, countr_eq c (by simp) X,
      (brun_cons_neg (by rw [hd]; exact d2)).1]; simp
  rw [(swarMask_cons b2 [b3] h2).1 d2, (brun_cons_pos (by rw [hd]; exact d2)).1]
  by_cases d3 : IsDig b3
  swap
  · obtain ⟨X, hX⟩ := (swarMask_cons b3 [] h3).2 d3
    rw [hX, show 2 ^ 8 * (2 ^ 8 * (2 ^ 8 * (128 + 2 ^ 8 * X))) = 2 ^ 31 * (2 * X + 1) by ring, countr_eq c (by simp) X,
      (brun_cons_neg (by rw [hd]; exact d3)).1]; simp
  rw [(swarMask_cons b3 [] h3).1 d3, (brun_cons_pos (by rw [hd]; exact d3)).1]
  have : swarMask [] = 0 := by decide
  rw [this, Nat.mul_zero, Nat.mul_zero, Nat.mul_zero, Nat.mul_zero, countr_zero]; rfl

theorem brun_take (b : Nat) : ∀ (p : List Nat) (n : Nat), brun b (p.take n) = (brun b p).take n := by
  intro p
  induction p with
  | nil => intro n; simp [brun]
  | cons u p ih =>
    intro n
    cases n with
    | zero => simp [brun]
    | succ n =>
      rw [List.take_succ_cons]
      by_cases h : digit u < b
      · rw [(brun_cons_pos h).1, (brun_cons_pos h).1, List.take_succ_cons, ih]
      · rw [(brun_cons_neg h).1, (brun_cons_neg h).1]; simp

theorem brun_eq_take (b : Nat) (p : List Nat) : brun b p = p.take (brun b p).length := by
  have := congrArg (List.take (brun b p).length) (brun_append b p)
  rw [List.take_left] at this
  exact this

theorem bafter_eq_drop (b : Nat) (p : List Nat) : bafter b p = p.drop (brun b p).length := by
  have := congrArg (List.drop (brun b p).length) (brun_append b p)
  rw [List.drop_left] at this
  exact this

theorem bafter_drop {b n : Nat} {p : List Nat} (h : n ≤ (brun b p).length) : bafter b (p.drop n) = bafter b p ∧ brun b (p.drop n) = (brun b p).drop n := by
  have h1 : p.drop n = (brun b p).drop n ++ bafter b p := by
    conv_lhs => rw [← brun_append b p]
    rw [List.drop_append_of_le_length h]
  have h2 := brun_unique (b := b) (ds := (brun b p).drop n) (rest := bafter b p) (fun u hu => brun_digit (List.mem_of_mem_drop hu)) (fun u hu => bafter_head hu)
  rw [← h1] at h2
  exact ⟨h2.2, h2.1⟩

theorem brun_length_le (b : Nat) (p : List Nat) : (brun b p).length ≤ p.length := by
  have := congrArg List.length (brun_append b p)
  rw [List.length_append] at this; omega

theorem digit_pad : ¬ digit 0 < 10 ∧ ¬ digit 0xFF < 10 := by decide

/-- The four loaded bytes: those of the input, padded with non-digits. -/
theorem u8Digits_eq (c : Cfg) (p : List Nat) (hp : p ≠ []) (hu : ∀ u ∈ p, u < 256) :
    ∃ b0 b1 b2 b3, b0 < 256 ∧ b1 < 256 ∧ b2 < 256 ∧ b3 < 256 ∧ u8Digits c p = .ok (leWord 1 [b0, b1, b2, b3]) ∧
      brun 10 [b0, b1, b2, b3] = brun 10 (p.take 4) := by
  have hor : ∀ x y z, x < 256 → y < 256 → z < 256 → x ||| y * 2 ^ 8 ||| z * 2 ^ 16 ||| 0xFF * 2 ^ 24 = leWord 1 [x, y, z, 0xFF] := by
    intro x y z hx hy hz
    rw [or_high x y 8 (by omega), or_high _ z 16 (by omega), or_high _ 0xFF 24 (by omega)]
    simp only [leWord]; ring
  have hce : ∀ str : List Nat, str.length = 4 → (∀ u ∈ str, u < 256) →
      (if c.bigEndian = true then byteswap32 (beWord 1 str) else leWord 1 str) = leWord 1 str := by
    intro str h1 h2
    split
    · exact byteswap32_eq str h1 h2
    · rfl
  obtain ⟨z0, zf⟩ := digit_pad
  have hz : ∀ u l, (¬ digit u < 10) → brun 10 (u :: l) = brun 10 [] := fun u l h => (brun_cons_neg h).1
  have ext : ∀ (x : Nat) (l l' : List Nat), brun 10 l = brun 10 l' → brun 10 (x :: l) = brun 10 (x :: l') := by
    intro x l l' h
    by_cases hx : digit x < 10
    · rw [(brun_cons_pos hx).1, (brun_cons_pos hx).1, h]
    · rw [(brun_cons_neg hx).1, (brun_cons_neg hx).1]
  match p, hp with
  | [x], _ =>
    have hx := hu x (by simp)
    by_cases hc : c.constEval = true
    · refine ⟨x, 0, 0, 0, hx, by omega, by omega, by omega, ?_, ext _ _ _ (hz _ _ z0)⟩
      unfold u8Digits
      rw [if_pos hc]
      exact congrArg Except.ok (hce [x, 0, 0, 0] rfl (by simp; omega))
    · refine ⟨x, 0xFF, 0xFF, 0xFF, hx, by omega, by omega, by omega, ?_, ext _ _ _ (hz _ _ zf)⟩
      unfold u8Digits
      rw [if_neg hc, if_neg (by simp)]
      exact congrArg Except.ok (hor x 0xFF 0xFF hx (by omega) (by omega))
  | [x, y], _ =>
    have hx := hu x (by simp)
    have hy := hu y (by simp)
    by_cases hc : c.constEval = true
    · refine ⟨x, y, 0, 0, hx, hy, by omega, by omega, ?_, ext _ _ _ (ext _ _ _ (hz _ _ z0))⟩
      unfold u8Digits
      rw [if_pos hc]
      exact congrArg Except.ok (hce [x, y, 0, 0] rfl (by simp; omega))
    · refine ⟨x, y, 0xFF, 0xFF, hx, hy, by omega, by omega, ?_, ext _ _ _ (ext _ _ _ (hz _ _ zf))⟩
      unfold u8Digits
      rw [if_neg hc, if_neg (by simp)]
      exact congrArg Except.ok (hor x y 0xFF hx hy (by omega))
  | [x, y, z], _ =>
    have hx := hu x (by simp)
    have hy := hu y (by simp)
    have hz' := hu z (by simp)
    by_cases hc : c.constEval = true
    · refine ⟨x, y, z, 0, hx, hy, hz', by omega, ?_, ext _ _ _ (ext _ _ _ (ext _ _ _ (hz _ _ z0)))⟩
      unfold u8Digits
      rw [if_pos hc]
      exact congrArg Except.ok (hce [x, y, z, 0] rfl (by simp; omega))
    · refine ⟨x, y, z, 0xFF, hx, hy, hz', by omega, ?_, ext _ _ _ (ext _ _ _ (ext _ _ _ (hz _ _ zf)))⟩
      unfold u8Digits
      rw [if_neg hc, if_neg (by simp)]
      exact congrArg Except.ok (hor x y z hx hy hz')
  | x :: y :: z :: w :: t, _ =>
    have hx := hu x (by simp)
    have hy := hu y (by simp)
    have hz' := hu z (by simp)
    have hw := hu w (by simp)
    refine ⟨x, y, z, w, hx, hy, hz', hw, ?_, rfl⟩
    unfold u8Digits
    by_cases hc : c.constEval = true
    · rw [if_pos hc]
      exact congrArg Except.ok (hce [x, y, z, w] rfl (by simp; omega))
    · rw [if_neg hc, if_pos (by simp), readBlock_ok (by simp)]
      exact congrArg Except.ok (hce [x, y, z, w] rfl (by simp; omega))

theorem u8Rest_eq {ct : CharType} (h1 : ct.width = 1) : ∀ (q : List Nat), (∀ u ∈ q, u < 256) → u8Rest ct q = bafter 10 q := by
  intro q
  induction q with
  | nil => intro _; rfl
  | cons u q ih =>
    intro hu
    have hu0 := hu u (by simp)
    have ht : (ct.toInt u < 48 ∨ ct.toInt u > 57) ↔ ¬ digit u < 10 := by
      rw [digit_lt_ten]
      unfold CharType.toInt
      rw [h1]
      split
      · norm_num at *; omega
      · omega
    unfold u8Rest
    by_cases h : digit u < 10
    · rw [if_neg (by rw [ht]; simpa using h), ih (fun v hv => hu v (by simp [hv])), (brun_cons_pos h).2]
    · rw [if_pos (ht.2 h), (brun_cons_neg h).2]

theorem xor_split (a b m n k : Nat) (ha : a < 2 ^ k) (hm : m < 2 ^ k) :
    (a + 2 ^ k * b) ^^^ (m + 2 ^ k * n) = (a ^^^ m) + 2 ^ k * (b ^^^ n) := by
  have h1 : a ^^^ m < 2 ^ k := Nat.xor_lt_two_pow ha hm
  apply Nat.eq_of_testBit_eq
  intro i
  rw [Nat.add_comm a, Nat.add_comm m, Nat.add_comm (a ^^^ m), Nat.testBit_xor, Nat.testBit_two_pow_mul_add _ ha,
    Nat.testBit_two_pow_mul_add _ hm, Nat.testBit_two_pow_mul_add _ h1]
  split
  · rw [Nat.testBit_xor]
  · rw [Nat.testBit_xor]

theorem xor48 {b : Nat} (h : b < 256) : b ^^^ 48 < 256 ∧ (digit b < 10 → b ^^^ 48 = digit b) := by
  have : ∀ b : Fin 256, b.val ^^^ 48 < 256 ∧ (digit b.val < 10 → b.val ^^^ 48 = digit b.val) := by decide +kernel
  exact this ⟨b, h⟩

theorem u8_xor (b0 b1 b2 b3 : Nat) (h0 : b0 < 256) (h1 : b1 < 256) (h2 : b2 < 256) :
    leWord 1 [b0, b1, b2, b3] ^^^ 0x30303030 = leWord 1 [b0 ^^^ 48, b1 ^^^ 48, b2 ^^^ 48, b3 ^^^ 48] := by
  have : (0x30303030 : Nat) = 48 + 2 ^ 8 * (48 + 2 ^ 8 * (48 + 2 ^ 8 * (48 + 2 ^ 8 * 0))) := by norm_num
  rw [this]
  simp only [leWord, Nat.mul_one]
  rw [xor_split _ _ _ _ 8 (by omega) (by norm_num), xor_split _ _ _ _ 8 (by omega) (by norm_num), xor_split _ _ _ _ 8 (by omega) (by norm_num)]
  simp

/-- The range check and the multiplication of the `uint8_t` path on the three aligned digits. -/
theorem u8_arith {e1 e2 e3 : Nat} (h1 : e1 < 10) (h2 : e2 < 10) (h3 : e3 < 10) {D : Nat} (hD : D = e1 * 2 ^ 8 + e2 * 2 ^ 16 + e3 * 2 ^ 24) :
    (((D / 2 ^ 24 &&& 0xff) ||| (D / 2 ^ 8 &&& 0xff00) ||| (D * 2 ^ 8 % 2 ^ 32 &&& 0xff0000)) > 0x00020505 ↔ 255 < e1 * 100 + e2 * 10 + e3) ∧
    (e1 * 100 + e2 * 10 + e3 ≤ 255 → (0x640a01 * D % 2 ^ 32) / 2 ^ 24 % 256 = e1 * 100 + e2 * 10 + e3) := by
  subst hD
  have : ∀ a b d : Fin 10, ∀ D, D = a.val * 2 ^ 8 + b.val * 2 ^ 16 + d.val * 2 ^ 24 →
    (((D / 2 ^ 24 &&& 0xff) ||| (D / 2 ^ 8 &&& 0xff00) ||| (D * 2 ^ 8 % 2 ^ 32 &&& 0xff0000)) > 0x00020505 ↔ 255 < a.val * 100 + b.val * 10 + d.val) ∧
    (a.val * 100 + b.val * 10 + d.val ≤ 255 → (0x640a01 * D % 2 ^ 32) / 2 ^ 24 % 256 = a.val * 100 + b.val * 10 + d.val) := by
    intro a b d D hD
    subst hD
    revert a b d
    decide +kernel
  exact this ⟨e1, h1⟩ ⟨e2, h2⟩ ⟨e3, h3⟩ _ rfl

/-- The shift aligns the digits. -/
theorem u8_shift (y0 y1 y2 y3 : Nat) (h0 : y0 < 256) (h1 : y1 < 256) (h2 : y2 < 256) :
    leWord 1 [y0, y1, y2, y3] * 2 ^ 24 % 2 ^ 32 = 0 * 2 ^ 8 + 0 * 2 ^ 16 + y0 * 2 ^ 24 ∧
    leWord 1 [y0, y1, y2, y3] * 2 ^ 16 % 2 ^ 32 = 0 * 2 ^ 8 + y0 * 2 ^ 16 + y1 * 2 ^ 24 ∧
    leWord 1 [y0, y1, y2, y3] * 2 ^ 8 % 2 ^ 32 = y0 * 2 ^ 8 + y1 * 2 ^ 16 + y2 * 2 ^ 24 := by
  simp only [leWord]
  omega

/-- The leading zeros have been removed. -/
def NoZero (p : List Nat) : Prop := ∀ u t, p = u :: t → u ≠ 48

/-- The `uint8_t` path. -/
theorem parseU8_eq (c : Cfg) {ct : CharType} (h1 : ct.width = 1) (first p : List Nat) (hu : ∀ u ∈ p, u < 256) (hnz : NoZero p) (hz : Bool) :
    (brun 10 p = [] → parseU8 c ct first p hz = .ok (if hz then ⟨bafter 10 p, .ok, some 0⟩ else ⟨first, .invalidArgument, none⟩)) ∧
    (brun 10 p ≠ [] → 255 < value 10 (brun 10 p) → parseU8 c ct first p hz = .ok ⟨bafter 10 p, .outOfRange, none⟩) ∧
    (brun 10 p ≠ [] → value 10 (brun 10 p) ≤ 255 → parseU8 c ct first p hz = .ok ⟨bafter 10 p, .ok, some (value 10 (brun 10 p) : Nat)⟩) := by
  by_cases hp : p = []
  · subst hp
    refine ⟨fun _ => ?_, fun h => absurd rfl h, fun h => absurd rfl h⟩
    unfold parseU8
    cases hz <;> rfl
  have hl0 : p.length ≠ 0 := by rw [Ne, List.length_eq_zero_iff]; exact hp
  obtain ⟨b0, b1, b2, b3, k0, k1, k2, k3, hdig, hrun⟩ := u8Digits_eq c p hp hu
  have hnd : (if (if countrZero32 c (swarMask [b0, b1, b2, b3]) = 32 then 4 else countrZero32 c (swarMask [b0, b1, b2, b3]) / 2 ^ 3) < p.length then
      (if countrZero32 c (swarMask [b0, b1, b2, b3]) = 32 then 4 else countrZero32 c (swarMask [b0, b1, b2, b3]) / 2 ^ 3) else p.length) =
      (brun 10 (p.take 4)).length := by
    rw [maskCount c b0 b1 b2 b3 k0 k1 k2 k3, hrun]
    have : (brun 10 (p.take 4)).length ≤ p.length := by
      have := brun_length_le 10 (p.take 4)
      rw [List.length_take] at this
      omega
    split <;> omega
  have hmask : (((leWord 1 [b0, b1, b2, b3] + 0x46464646) % 2 ^ 32 ||| (leWord 1 [b0, b1, b2, b3] + 2 ^ 32 - 0x30303030) % 2 ^ 32) &&& 0x80808080) =
      swarMask [b0, b1, b2, b3] := by
    unfold swarMask
    rw [show [b0, b1, b2, b3].length = 4 from rfl, rep4 0x46, rep4 0x30, rep4 0x80]
  obtain ⟨nd, hnd0⟩ : ∃ nd, (brun 10 (p.take 4)).length = nd := ⟨_, rfl⟩
  have hnd4 : nd = min 4 (brun 10 p).length := by rw [← hnd0, brun_take, List.length_take]
  unfold parseU8
  simp only
  rw [if_neg hl0, hdig, ok_bind]
  rw [hmask, hnd, hnd0]
  by_cases hn0 : nd = 0
  · have he : brun 10 p = [] := List.length_eq_zero_iff.1 (by omega)
    refine ⟨fun _ => ?_, fun h => absurd he h, fun h => absurd he h⟩
    have : bafter 10 p = p := by rw [bafter_eq_drop, he]; rfl
    rw [if_pos hn0, this]
    cases hz <;> rfl
  have hne : brun 10 p ≠ [] := by intro h; rw [h] at hnd4; simp at hnd4; omega
  refine ⟨fun h => absurd h hne, ?_⟩
  by_cases hn3 : nd > 3
  · have h4 : 4 ≤ (brun 10 p).length := by omega
    have hlen := brun_length_le 10 p
    have hbig : 1000 ≤ value 10 (brun 10 p) := by
      obtain ⟨u, t, e⟩ := List.exists_cons_of_ne_nil hne
      have hu48 : u ≠ 48 := by
        have h := brun_append 10 p
        rw [e] at h
        exact hnz u _ h.symm
      have h1' : 1 ≤ digit u := by
        have := digit_zero (u := u); omega
      rw [e]
      refine le_trans ?_ (value_ge h1')
      rw [e] at h4
      simp only [List.length_cons] at h4
      calc 1000 = 10 ^ 3 := by norm_num
        _ ≤ 10 ^ t.length := Nat.pow_le_pow_right (by norm_num) (by omega)
    refine ⟨fun _ _ => ?_, fun _ h => by omega⟩
    rw [if_neg hn0, if_pos hn3, skipN_ok (by omega), ok_bind, u8Rest_eq h1 _ (fun u h => hu u (List.mem_of_mem_drop h)),
      (bafter_drop (by omega : nd ≤ (brun 10 p).length)).1]
    rfl
  · have hlen : (brun 10 p).length = nd := by omega
    have hr : brun 10 p = brun 10 [b0, b1, b2, b3] := by
      rw [hrun, brun_take, List.take_of_length_le (by omega)]
    have hrt : brun 10 p = [b0, b1, b2, b3].take nd := by
      rw [hr]
      have := brun_eq_take 10 [b0, b1, b2, b3]
      rw [← hr, hlen, hr] at this
      exact this
    have hd : ∀ u ∈ [b0, b1, b2, b3].take nd, digit u < 10 := by rw [← hrt]; exact fun u h => brun_digit h
    obtain ⟨y0, y0'⟩ := xor48 k0
    obtain ⟨y1, y1'⟩ := xor48 k1
    obtain ⟨y2, y2'⟩ := xor48 k2
    obtain ⟨s1, s2, s3⟩ := u8_shift (b0 ^^^ 48) (b1 ^^^ 48) (b2 ^^^ 48) (b3 ^^^ 48) y0 y1 y2
    have hq : skipN nd p = .ok (bafter 10 p) := by
      rw [skipN_ok (by have := brun_length_le 10 p; omega), bafter_eq_drop, hlen]
    obtain ⟨e1, e2, e3, D, q1, q2, q3, hD, hshift, hval⟩ : ∃ e1 e2 e3 D, e1 < 10 ∧ e2 < 10 ∧ e3 < 10 ∧ D = e1 * 2 ^ 8 + e2 * 2 ^ 16 + e3 * 2 ^ 24 ∧
        shl32 (leWord 1 [b0, b1, b2, b3] ^^^ 0x30303030) ((4 - nd) * 8) = .ok D ∧ value 10 (brun 10 p) = e1 * 100 + e2 * 10 + e3 := by
      rw [u8_xor b0 b1 b2 b3 k0 k1 k2, hrt]
      unfold shl32
      rw [if_pos (by omega)]
      rcases (by omega : nd = 1 ∨ nd = 2 ∨ nd = 3) with e | e | e <;> subst e
      · have d0 := hd b0 (by simp)
        refine ⟨0, 0, digit b0, _, by omega, by omega, d0, ?_, congrArg Except.ok s1, by simp [value]⟩
        rw [y0' d0]
      · have d0 := hd b0 (by simp)
        have d1 := hd b1 (by simp)
        refine ⟨0, digit b0, digit b1, _, by omega, d0, d1, ?_, congrArg Except.ok s2, by simp [value]⟩
        rw [y0' d0, y1' d1]
      · have d0 := hd b0 (by simp)
        have d1 := hd b1 (by simp)
        have d2 := hd b2 (by simp)
        refine ⟨digit b0, digit b1, digit b2, _, d0, d1, d2, ?_, congrArg Except.ok s3, by simp [value]; ring⟩
        rw [y0' d0, y1' d1, y2' d2]
    obtain ⟨a1, a2⟩ := u8_arith q1 q2 q3 hD
    rw [if_neg hn0, if_neg hn3, hshift, ok_bind, hq, ok_bind, hval]
    refine ⟨fun _ h => ?_, fun _ h => ?_⟩
    · rw [if_pos (a1.2 h)]; rfl
    · rw [if_neg (by rw [a1]; omega), a2 h]; rfl

theorem four_cons : ∀ {p : List Nat}, p.length ≥ 4 → ∃ x y z w t, p = x :: y :: z :: w :: t
  | x :: y :: z :: w :: t, _ => ⟨x, y, z, w, t, rfl⟩
  | [], h => absurd h (by simp)
  | [_], h => absurd h (by simp)
  | [_, _], h => absurd h (by simp)
  | [_, _, _], h => absurd h (by simp)

/-- The `uint16_t` path, when it does not fall through. -/
theorem parseU16_eq (c : Cfg) {ct : CharType} (hw : ct.WF) (h1 : ct.width = 1) (first p : List Nat) (hu : ∀ u ∈ p, u < 256) (hnz : NoZero p) (hz : Bool) :
    ∃ o, parseU16 c ct first p hz = .ok o ∧ ∀ r, o = some r →
      (brun 10 p = [] → r = (if hz then ⟨bafter 10 p, .ok, some 0⟩ else ⟨first, .invalidArgument, none⟩)) ∧
      (brun 10 p ≠ [] → 65535 < value 10 (brun 10 p) → r = ⟨bafter 10 p, .outOfRange, none⟩) ∧
      (brun 10 p ≠ [] → value 10 (brun 10 p) ≤ 65535 → r = ⟨bafter 10 p, .ok, some (value 10 (brun 10 p) : Nat)⟩) := by
  by_cases hp : p = []
  · subst hp
    refine ⟨_, rfl, ?_⟩
    intro r hr
    simp only [Option.some.injEq] at hr
    refine ⟨fun _ => ?_, fun h => absurd rfl h, fun h => absurd rfl h⟩
    rw [← hr]; rfl
  have hl0 : p.length ≠ 0 := by rw [Ne, List.length_eq_zero_iff]; exact hp
  unfold parseU16
  simp only
  rw [if_neg hl0]
  by_cases h4 : p.length ≥ 4
  swap
  · rw [if_neg h4]; exact ⟨none, rfl, fun r h => by cases h⟩
  rw [if_pos h4]
  have hu4 : ∀ x ∈ p.take 4, x < 256 := fun x h => hu x (List.mem_of_mem_take h)
  rw [read4_eq c ct p h4 hu4, ok_bind]
  by_cases hm : isMadeOfFourDigitsFast (leWord 1 (p.take 4)) = true
  swap
  · rw [if_neg hm]; exact ⟨none, rfl, fun r h => by cases h⟩
  rw [if_pos hm]
  have hlt4 : (p.take 4).length = 4 := by rw [List.length_take]; omega
  have hd4 := (isMadeOfFour_iff _ hlt4 hu4).1 hm
  rw [parseFour_eq _ hlt4 hd4]
  obtain ⟨x, y, z, w, t, rfl⟩ : ∃ x y z w t, p = x :: y :: z :: w :: t := four_cons h4
  have hd : ∀ u ∈ [x, y, z, w], digit u < 10 := fun u h => digit_lt_ten.2 (hd4 u h)
  obtain ⟨r0, r1⟩ := brun_cons_pos (s := y :: z :: w :: t) (hd x (by simp))
  obtain ⟨r2, r3⟩ := brun_cons_pos (s := z :: w :: t) (hd y (by simp))
  obtain ⟨r4, r5⟩ := brun_cons_pos (s := w :: t) (hd z (by simp))
  obtain ⟨r6, r7⟩ := brun_cons_pos (s := t) (hd w (by simp))
  have hrun : brun 10 (x :: y :: z :: w :: t) = x :: y :: z :: w :: brun 10 t := by rw [r0, r2, r4, r6]
  have haft : bafter 10 (x :: y :: z :: w :: t) = bafter 10 t := by rw [r1, r3, r5, r7]
  have hne : brun 10 (x :: y :: z :: w :: t) ≠ [] := by rw [hrun]; simp
  have hx1 : 1 ≤ digit x := by
    have := hnz x _ rfl
    have := digit_zero (u := x); omega
  obtain ⟨V4, hV4⟩ : ∃ V4, value 10 [x, y, z, w] = V4 := ⟨_, rfl⟩
  have hV4l : V4 < 10000 := by have := value_lt (b := 10) hd; rw [hV4] at this; norm_num at this; exact this
  have hdv : dval [x, y, z, w] = V4 := by
    rw [← hV4]; exact value_dec hd 0
  have htake : (x :: y :: z :: w :: t).take 4 = [x, y, z, w] := rfl
  rw [htake, hdv]
  have hchk : ∀ u ∈ t, UnitOK ct u := by
    intro u h
    refine ⟨?_, by omega⟩
    rw [h1]; exact hu u (by simp [h])
  have hisd : ∀ u, UnitOK ct u → isInteger ct u = .ok (decide (digit u < 10)) := by
    intro u h
    rw [isInteger_eq hw h]
    unfold isDigB
    exact congrArg Except.ok (decide_eq_decide.2 (by rw [digit_lt_ten]; rfl))
  have hskip : ∀ q : List Nat, (∀ u ∈ q, UnitOK ct u) → skipDigits ct q = .ok (bafter 10 q) := by
    intro q
    induction q with
    | nil => intro _; rfl
    | cons u q ih =>
      intro h
      unfold skipDigits
      rw [hisd u (h u (by simp))]
      by_cases hdu : digit u < 10
      · rw [decide_eq_true hdu, (brun_cons_pos hdu).2]; exact ih (fun v hv => h v (by simp [hv]))
      · rw [decide_eq_false hdu, (brun_cons_neg hdu).2]
  rw [hrun, haft]
  rw [show isIntegerAt ct (x :: y :: z :: w :: t) 4 = isIntegerAt ct t 0 from rfl]
  -- the case of exactly four digits
  have four : brun 10 t = [] → ∃ o, (do
        let q4 ← skipN 4 (x :: y :: z :: w :: t)
        pure (some ({ ptr := q4, ec := .ok, value := some ((V4 % 2 ^ 16 : Nat) : Int) } : IntResult)) : Exec (Option IntResult)) = .ok o ∧ ∀ r, o = some r →
      (x :: y :: z :: w :: brun 10 t = [] → r = (if hz = true then ⟨bafter 10 t, .ok, some 0⟩ else ⟨first, .invalidArgument, none⟩)) ∧
      (x :: y :: z :: w :: brun 10 t ≠ [] → 65535 < value 10 (x :: y :: z :: w :: brun 10 t) → r = ⟨bafter 10 t, .outOfRange, none⟩) ∧
      (x :: y :: z :: w :: brun 10 t ≠ [] → value 10 (x :: y :: z :: w :: brun 10 t) ≤ 65535 →
        r = ⟨bafter 10 t, .ok, some (value 10 (x :: y :: z :: w :: brun 10 t) : Nat)⟩) := by
    intro he
    rw [skipN_ok (by simp), ok_bind]
    refine ⟨_, rfl, ?_⟩
    intro r hr
    simp only [Option.some.injEq] at hr
    rw [he, hV4]
    refine ⟨fun h => (by cases h), fun _ h => by omega, fun _ _ => ?_⟩
    rw [← hr, Nat.mod_eq_of_lt (by omega), bafter_eq_drop, he]
    rfl
  cases t with
  | nil =>
    rw [show isIntegerAt ct [] 0 = .ok false from rfl, ok_bind, if_neg (by simp)]
    exact four rfl
  | cons v t =>
    rw [show isIntegerAt ct (v :: t) 0 = isInteger ct v from rfl, hisd v (hchk v (by simp)), ok_bind]
    by_cases hv : digit v < 10
    swap
    · rw [decide_eq_false hv, if_neg (by simp)]
      exact four (brun_cons_neg hv).1
    rw [decide_eq_true hv, if_pos rfl]
    have hv' := digit_lt_ten.1 hv
    have hgd : (x :: y :: z :: w :: v :: t).getD 4 0 = v := rfl
    have hv5 : value 10 [x, y, z, w, v] = V4 * 10 + (v - 48) := by
      have := value_append 10 [x, y, z, w] [v]
      rw [hV4] at this
      rw [show [x, y, z, w, v] = [x, y, z, w] ++ [v] from rfl, this]
      simp [value, digit_dec hv']
    rw [hgd, ← hv5, (brun_cons_pos hv).1, (brun_cons_pos hv).2,
      show isIntegerAt ct (x :: y :: z :: w :: v :: t) 5 = isIntegerAt ct t 0 from rfl]
    have hsk : skipN 5 (x :: y :: z :: w :: v :: t) = .ok t := skipN_ok (by simp)
    have five : brun 10 t = [] → ∃ o, (if value 10 [x, y, z, w, v] % 2 ^ 32 > 65535 then pure (some { ptr := t, ec := .outOfRange, value := none })
          else pure (some ({ ptr := t, ec := .ok, value := some ((value 10 [x, y, z, w, v] % 2 ^ 32 % 2 ^ 16 : Nat) : Int) } : IntResult)) : Exec (Option IntResult)) = .ok o ∧ ∀ r, o = some r →
      (x :: y :: z :: w :: v :: brun 10 t = [] → r = (if hz = true then ⟨bafter 10 t, .ok, some 0⟩ else ⟨first, .invalidArgument, none⟩)) ∧
      (x :: y :: z :: w :: v :: brun 10 t ≠ [] → 65535 < value 10 (x :: y :: z :: w :: v :: brun 10 t) → r = ⟨bafter 10 t, .outOfRange, none⟩) ∧
      (x :: y :: z :: w :: v :: brun 10 t ≠ [] → value 10 (x :: y :: z :: w :: v :: brun 10 t) ≤ 65535 →
        r = ⟨bafter 10 t, .ok, some (value 10 (x :: y :: z :: w :: v :: brun 10 t) : Nat)⟩) := by
      intro he
      have hb : value 10 [x, y, z, w, v] < 2 ^ 32 := by rw [hv5]; omega
      have hat : bafter 10 t = t := by rw [bafter_eq_drop, he]; rfl
      rw [he, hat, Nat.mod_eq_of_lt hb]
      by_cases hov : value 10 [x, y, z, w, v] > 65535
      · rw [if_pos hov]
        refine ⟨_, rfl, fun r hr => ⟨fun h => (by cases h), fun _ _ => ?_, fun _ h => by omega⟩⟩
        exact (Option.some.inj hr).symm
      · rw [if_neg hov]
        refine ⟨_, rfl, fun r hr => ⟨fun h => (by cases h), fun _ h => by omega, fun _ _ => ?_⟩⟩
        rw [← Option.some.inj hr, Nat.mod_eq_of_lt (by omega)]
    cases t with
    | nil =>
      rw [show isIntegerAt ct [] 0 = .ok false from rfl, ok_bind, hsk, ok_bind, if_neg (by simp)]
      exact five rfl
    | cons v2 t =>
      rw [show isIntegerAt ct (v2 :: t) 0 = isInteger ct v2 from rfl, hisd v2 (hchk v2 (by simp)), ok_bind, hsk, ok_bind]
      by_cases hv2 : digit v2 < 10
      swap
      · rw [decide_eq_false hv2, if_neg (by simp)]
        exact five (brun_cons_neg hv2).1
      rw [decide_eq_true hv2, if_pos rfl, hskip _ (fun u h => hchk u (by simp [List.mem_cons.1 h])), ok_bind]
      refine ⟨_, rfl, fun r hr => ⟨fun h => (by cases h), fun _ _ => (Option.some.inj hr).symm, fun _ h => ?_⟩⟩
      exfalso
      have := value_ge (b := 10) (l := y :: z :: w :: v :: brun 10 (v2 :: t)) hx1
      rw [(brun_cons_pos hv2).1] at this h
      have h5 : 10 ^ 5 ≤ 10 ^ (y :: z :: w :: v :: v2 :: brun 10 t).length := Nat.pow_le_pow_right (by norm_num) (by simp)
      omega

end FastFloat
