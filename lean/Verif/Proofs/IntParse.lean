import Verif.Model.ParseNumber
import Verif.Spec.Integer
import Verif.Proofs.Scanner
import Verif.Proofs.Result
/-
# Integer parsing: the digit loop and the generic code
-/
set_option linter.unusedSimpArgs false

namespace FastFloat
open IntSpec

/-- The value of digits continuing an accumulator. -/
def bvalFrom (b a : Nat) (ds : List Nat) : Nat := ds.foldl (fun a u => a * b + digit u) a

theorem value_def (b : Nat) (ds : List Nat) : value b ds = bvalFrom b 0 ds := rfl

theorem bvalFrom_eq (b : Nat) (l : List Nat) : ∀ a, bvalFrom b a l = a * b ^ l.length + value b l := by
  induction l with
  | nil => intro a; simp [bvalFrom, value]
  | cons u l ih =>
    intro a
    have h1 : bvalFrom b a (u :: l) = bvalFrom b (a * b + digit u) l := rfl
    have h2 : value b (u :: l) = bvalFrom b (digit u) l := by
      unfold value bvalFrom; simp
    rw [h1, h2, ih, ih, List.length_cons, pow_succ]
    ring

theorem value_append (b : Nat) (l r : List Nat) : value b (l ++ r) = value b l * b ^ r.length + value b r := by
  rw [← bvalFrom_eq]; unfold value bvalFrom; rw [List.foldl_append]

theorem value_cons (b u : Nat) (l : List Nat) : value b (u :: l) = digit u * b ^ l.length + value b l := by
  have : value b (u :: l) = bvalFrom b (digit u) l := by unfold value bvalFrom; simp
  rw [this, bvalFrom_eq]

theorem value_lt {b : Nat} {l : List Nat} (h : ∀ u ∈ l, digit u < b) : value b l < b ^ l.length := by
  induction l with
  | nil => simp [value]
  | cons u l ih =>
    have h1 := h u (by simp)
    have h2 := ih (fun v hv => h v (by simp [hv]))
    rw [value_cons, List.length_cons, pow_succ]
    have : digit u * b ^ l.length + b ^ l.length ≤ b * b ^ l.length := by
      calc digit u * b ^ l.length + b ^ l.length = (digit u + 1) * b ^ l.length := by ring
        _ ≤ b * b ^ l.length := Nat.mul_le_mul_right _ h1
    rw [Nat.mul_comm (b ^ l.length) b]
    omega

theorem value_ge {b u : Nat} {l : List Nat} (h : 1 ≤ digit u) : b ^ l.length ≤ value b (u :: l) := by
  rw [value_cons]
  have : 1 * b ^ l.length ≤ digit u * b ^ l.length := Nat.mul_le_mul_right _ h
  omega

theorem digit_dec {u : Nat} (h : 48 ≤ u ∧ u ≤ 57) : digit u = u - 48 := by unfold digit; rw [if_pos h]

theorem digit_lt_ten {u : Nat} : digit u < 10 ↔ 48 ≤ u ∧ u ≤ 57 := by
  unfold digit
  split
  · omega
  · split
    · omega
    · split <;> omega

theorem digit_le (u : Nat) : digit u ≤ 36 := by
  unfold digit; split
  · omega
  · split
    · omega
    · split <;> omega

theorem digit_zero {u : Nat} : digit u = 0 ↔ u = 48 := by
  unfold digit
  split
  · omega
  · split
    · omega
    · split <;> omega

theorem value_dec {l : List Nat} (h : ∀ u ∈ l, digit u < 10) : ∀ a, dvalFrom a l = bvalFrom 10 a l := by
  induction l with
  | nil => intro a; rfl
  | cons u l ih =>
    intro a
    have hu := digit_lt_ten.1 (h u (by simp))
    show dvalFrom (a * 10 + (u - 48)) l = bvalFrom 10 (a * 10 + digit u) l
    rw [digit_dec hu]
    exact ih (fun v hv => h v (by simp [hv])) _

/-- `ch_to_digit` finds the digit value; every non-digit gets a value too large for any base. -/
theorem chToDigit_eq (u : Nat) : ∃ d, chToDigit u = .ok d ∧ ∀ b ≤ 36, (d < b ↔ digit u < b) ∧ (d < b → d = digit u) := by
  have key : ∀ v : Fin 256, ∃ d, chToDigit v.val = .ok d ∧ ((d = digit v.val ∧ digit v.val < 36) ∨ (36 ≤ d ∧ digit v.val = 36)) := by
    intro v
    have h : ∀ v : Fin 256, (match chToDigit v.val with
      | .ok d => decide ((d = digit v.val ∧ digit v.val < 36) ∨ (36 ≤ d ∧ digit v.val = 36))
      | .error _ => false) = true := by decide +kernel
    have := h v
    cases hc : chToDigit v.val with
    | error e => rw [hc] at this; cases this
    | ok d => rw [hc] at this; exact ⟨d, rfl, of_decide_eq_true this⟩
  rcases Nat.lt_or_ge u 256 with hu | hu
  · obtain ⟨d, h1, h2⟩ := key ⟨u, hu⟩
    refine ⟨d, h1, fun b hb => ?_⟩
    simp only at h2
    rcases h2 with ⟨e, _⟩ | ⟨e, e'⟩
    · rw [e]; exact ⟨Iff.rfl, fun _ => rfl⟩
    · rw [e']; constructor <;> omega
  · obtain ⟨d, h1, h2⟩ := key ⟨0, by omega⟩
    have h3 : chToDigit u = chToDigit 0 := by
      unfold chToDigit
      have : u / 256 ≠ 0 := by
        have := Nat.div_le_div_right (c := 256) hu; omega
      rw [if_neg this]
      rfl
    refine ⟨d, h3.trans h1, fun b hb => ?_⟩
    have h4 : digit u = 36 := by unfold digit; rw [if_neg (by omega), if_neg (by omega), if_neg (by omega)]
    have h5 : 36 ≤ d := by
      rcases h2 with ⟨_, e⟩ | ⟨e, _⟩
      · exact absurd (show digit 0 < 36 from e) (by decide)
      · exact e
    rw [h4]; constructor <;> omega

/-- The maximal digit run. -/
def brun (b : Nat) (s : List Nat) : List Nat := s.takeWhile (fun u => decide (digit u < b))
/-- What follows it. -/
def bafter (b : Nat) (s : List Nat) : List Nat := s.dropWhile (fun u => decide (digit u < b))

theorem brun_append (b : Nat) (s : List Nat) : brun b s ++ bafter b s = s := List.takeWhile_append_dropWhile

theorem brun_digit {b : Nat} {s : List Nat} {u : Nat} (h : u ∈ brun b s) : digit u < b := by
  have := List.mem_takeWhile_imp h
  exact of_decide_eq_true this

theorem bafter_head {b : Nat} {s : List Nat} {u : Nat} (h : (bafter b s).head? = some u) : ¬ digit u < b := by
  intro hu
  have := List.head?_dropWhile_not (fun u => decide (digit u < b)) s
  rw [show s.dropWhile (fun u => decide (digit u < b)) = bafter b s from rfl, h] at this
  simp [hu] at this

theorem brun_cons_pos {b u : Nat} {s : List Nat} (h : digit u < b) : brun b (u :: s) = u :: brun b s ∧ bafter b (u :: s) = bafter b s := by
  unfold brun bafter
  rw [List.takeWhile_cons_of_pos (by simpa using h), List.dropWhile_cons_of_pos (by simpa using h)]; exact ⟨rfl, rfl⟩

theorem brun_cons_neg {b u : Nat} {s : List Nat} (h : ¬ digit u < b) : brun b (u :: s) = [] ∧ bafter b (u :: s) = u :: s := by
  unfold brun bafter
  rw [List.takeWhile_cons_of_neg (by simpa using h), List.dropWhile_cons_of_neg (by simpa using h)]; exact ⟨rfl, rfl⟩

/-- The run and what follows are determined by being a maximal run of digits. -/
theorem brun_unique {b : Nat} {ds rest : List Nat} (h : ∀ u ∈ ds, digit u < b) (hm : ∀ u, rest.head? = some u → ¬ digit u < b) :
    brun b (ds ++ rest) = ds ∧ bafter b (ds ++ rest) = rest := by
  induction ds with
  | nil =>
    cases rest with
    | nil => exact ⟨rfl, rfl⟩
    | cons u rest => exact brun_cons_neg (hm u rfl)
  | cons u ds ih =>
    obtain ⟨i1, i2⟩ := ih (fun v hv => h v (by simp [hv]))
    obtain ⟨e1, e2⟩ := brun_cons_pos (s := ds ++ rest) (h u (by simp))
    rw [List.cons_append, e1, e2, i1, i2]; exact ⟨rfl, rfl⟩

theorem bstep_mod (b i d : Nat) : (b * (i % 2 ^ 64) + d) % 2 ^ 64 = (i * b + d) % 2 ^ 64 := by
  rw [Nat.add_mod, Nat.mul_mod, Nat.mod_mod, ← Nat.mul_mod, ← Nat.add_mod, Nat.mul_comm]

/-- The digit loop consumes the maximal run of digits of the base. -/
theorem baseLoop_eq {base : Int} {b : Nat} (hb : base = (b : Int)) (h36 : b ≤ 36) : ∀ (p : List Nat) (i : Nat),
    baseLoop base p (i % 2 ^ 64) = .ok (bafter b p, bvalFrom b i (brun b p) % 2 ^ 64) := by
  intro p
  induction p with
  | nil => intro i; rfl
  | cons u p ih =>
    intro i
    obtain ⟨d, h1, h2⟩ := chToDigit_eq u
    obtain ⟨h3, h4⟩ := h2 b h36
    unfold baseLoop
    rw [h1]
    simp only
    by_cases hd : d < b
    · rw [if_neg (by rw [hb]; omega)]
      obtain ⟨e1, e2⟩ := brun_cons_pos (s := p) (h3.1 hd)
      rw [e1, e2, hb, Int.toNat_natCast, bstep_mod, ← hb, ih, h4 hd]
      rfl
    · rw [if_pos (by rw [hb]; omega)]
      obtain ⟨e1, e2⟩ := brun_cons_neg (s := p) (fun h => hd (h3.2 h))
      rw [e1, e2]
      rfl

/-- The block loop (base 10) and the digit loop together consume the maximal run. -/
theorem intLoops_eq (c : Cfg) {ct : CharType} (hw : ct.WF) {base : Int} {b : Nat} (hb : base = (b : Int)) (h36 : b ≤ 36) (p : List Nat)
    (hu : ∀ u ∈ p, u < 2 ^ (8 * ct.width)) :
    ∃ r, intBlocks c ct base p = .ok r ∧
      baseLoop base r.1 r.2 = .ok (bafter b p, value b (brun b p) % 2 ^ 64) := by
  unfold intBlocks
  by_cases h10 : base = 10
  · rw [if_pos h10]
    have hb10 : b = 10 := by omega
    obtain ⟨r, e1, l, g1, g2, g3⟩ := loopParse_eq c hw p 0 hu
    refine ⟨r, e1, ?_⟩
    have g2' : ∀ u ∈ l, digit u < b := fun u h => by rw [hb10]; exact digit_lt_ten.2 (g2 u h)
    rw [g3, baseLoop_eq hb h36]
    have hsplit := brun_unique (b := b) (ds := l ++ brun b r.1) (rest := bafter b r.1) (by
      intro u hu'
      rcases List.mem_append.1 hu' with h | h
      · exact g2' u h
      · exact brun_digit h) (fun u h => bafter_head h)
    rw [List.append_assoc, brun_append, ← g1] at hsplit
    rw [hsplit.1, hsplit.2, value_dec (fun u h => by rw [← hb10]; exact g2' u h), value_def]
    congr 2
    rw [hb10]
    unfold bvalFrom
    rw [List.foldl_append]
  · rw [if_neg h10]
    refine ⟨(p, 0), rfl, ?_⟩
    have := baseLoop_eq hb h36 p 0
    rw [Nat.zero_mod] at this
    exact this

/-- `max_digits_u64`. -/
def maxDigitsOf (b : Nat) : Nat := maxdigitsU64.getD (b - 2) 0

/-- Facts about the two tables: numbers with `maxDigitsOf` digits start at `min_safe_u64`, at most `2^64`; more digits never fit. -/
theorem digitTables {base : Int} {b : Nat} (hb : base = (b : Int)) (h2 : 2 ≤ b) (h36 : b ≤ 36) :
    maxDigitsU64 base = .ok (maxDigitsOf b) ∧ minSafeU64 base = .ok (b ^ (maxDigitsOf b - 1)) ∧ 2 ^ 64 ≤ b ^ maxDigitsOf b ∧
      b ^ (maxDigitsOf b - 1) < 2 ^ 64 ∧ 2 ^ 32 < b ^ (maxDigitsOf b - 1) ∧ 1 ≤ maxDigitsOf b := by
  subst hb
  have key : ∀ k : Fin 37, 2 ≤ k.val → (decide (maxDigitsU64 (k.val : Int) = .ok (maxDigitsOf k.val)) &&
      decide (minSafeU64 (k.val : Int) = .ok (k.val ^ (maxDigitsOf k.val - 1))) && decide (2 ^ 64 ≤ k.val ^ maxDigitsOf k.val) &&
      decide (k.val ^ (maxDigitsOf k.val - 1) < 2 ^ 64) && decide (2 ^ 32 < k.val ^ (maxDigitsOf k.val - 1)) && decide (1 ≤ maxDigitsOf k.val)) = true := by
    decide +kernel
  have := key ⟨b, by omega⟩ h2
  simp only [Bool.and_eq_true, decide_eq_true_eq] at this
  exact ⟨this.1.1.1.1.1, this.1.1.1.1.2, this.1.1.1.2, this.1.1.2, this.1.2, this.2⟩

/-- The overflow check of the code on the accumulated word. -/
def Overflow (T : IntType) (b : Nat) (neg : Bool) (len i : Nat) : Prop :=
  maxDigitsOf b < len ∨ (len = maxDigitsOf b ∧ i < b ^ (maxDigitsOf b - 1)) ∨ (T.isU64 = false ∧ T.max + (if neg then 1 else 0) < i)

theorem IntType.max_lt {T : IntType} (hT : T.WF) : T.max < 2 ^ 64 ∧ (T.signed = true → T.max < 2 ^ 63) := by
  unfold IntType.max
  rcases hT.1 with ⟨h, hs⟩ | h | h | h | h <;> rw [h]
  · rw [hs]; simp
  all_goals (cases T.signed <;> norm_num)

theorem IntType.cast_nat {T : IntType} {i : Nat} (hT : T.WF) (h : i ≤ T.max) : T.cast (i : Int) = (i : Int) := by
  unfold IntType.max at h
  unfold IntType.cast
  obtain ⟨b, hb⟩ : ∃ b, T.bits = b := ⟨_, rfl⟩
  have hb0 : b = 1 ∨ b = 8 ∨ b = 16 ∨ b = 32 ∨ b = 64 := by
    rcases hT.1 with ⟨h, _⟩ | h | h | h | h <;> omega
  rw [hb] at h ⊢
  cases hs : T.signed <;> rw [hs] at h <;> rcases hb0 with e | e | e | e | e <;> subst e <;> simp at h ⊢ <;> omega

theorem chk64_ok {x : Int} (h1 : -2 ^ 63 ≤ x) (h2 : x < 2 ^ 63) : chk64 x = .ok x := by unfold chk64; rw [if_pos ⟨h1, h2⟩]

theorem negativeValue_eq {T : IntType} {i : Nat} (hT : T.WF) (hs : T.signed = true) (h : i ≤ T.max + 1) : negativeValue T i = .ok (-(i : Int)) := by
  have hm : T.max = 2 ^ (T.bits - 1) - 1 := by unfold IntType.max; rw [if_pos hs]
  have hb : T.bits = 8 ∨ T.bits = 16 ∨ T.bits = 32 ∨ T.bits = 64 := by
    rcases hT.1 with ⟨_, h0⟩ | h | h | h | h
    · rw [hs] at h0; cases h0
    · exact Or.inl h
    · exact Or.inr (Or.inl h)
    · exact Or.inr (Or.inr (Or.inl h))
    · exact Or.inr (Or.inr (Or.inr h))
  have hd : T.cast (((i + 2 ^ 64 - T.max) % 2 ^ 64 : Nat) : Int) = (i : Int) - T.max := by
    unfold IntType.cast
    rcases hb with e | e | e | e <;> rw [e] at hm ⊢ <;> rw [hs] <;> norm_num at hm ⊢ <;> rw [hm] at h ⊢ <;> split <;> omega
  have hc : T.cast (-(i : Int)) = -(i : Int) := by
    unfold IntType.cast
    rcases hb with e | e | e | e <;> rw [e] at hm ⊢ <;> rw [hs] <;> norm_num at hm ⊢ <;> rw [hm] at h <;> split <;> omega
  unfold negativeValue
  simp only [hd]
  have e : -(T.max : Int) - ((i : Int) - T.max) = -(i : Int) := by ring
  rw [e]
  have hlt := (IntType.max_lt hT).2 hs
  by_cases h32 : T.bits ≤ 32
  · rw [if_pos h32]
    have : T.max ≤ 2 ^ 31 - 1 := by
      rw [hm]
      have : 2 ^ (T.bits - 1) ≤ 2 ^ 31 := Nat.pow_le_pow_right (by norm_num) (by omega)
      omega
    rw [chk32_ok (by omega) (by omega), ok_bind, hc]; rfl
  · rw [if_neg h32, if_pos (by omega : T.bits ≤ 64), chk64_ok (by omega) (by omega), ok_bind, hc]; rfl

/-- What the generic code does with the digits that follow the leading zeros. -/
theorem parseIntGeneric_eq (c : Cfg) {ct : CharType} (hw : ct.WF) {T : IntType} (hT : T.WF) {base : Int} {b : Nat} (hb : base = (b : Int)) (h2 : 2 ≤ b)
    (h36 : b ≤ 36) (first p : List Nat) (hu : ∀ u ∈ p, u < 2 ^ (8 * ct.width)) (neg hz : Bool) (hneg : neg = true → T.signed = true) :
    (brun b p = [] → parseIntGeneric c ct T base first p neg hz =
      .ok (if hz then ⟨bafter b p, .ok, some 0⟩ else ⟨first, .invalidArgument, none⟩)) ∧
    (brun b p ≠ [] → Overflow T b neg (brun b p).length (value b (brun b p) % 2 ^ 64) →
      parseIntGeneric c ct T base first p neg hz = .ok ⟨bafter b p, .outOfRange, none⟩) ∧
    (brun b p ≠ [] → ¬ Overflow T b neg (brun b p).length (value b (brun b p) % 2 ^ 64) →
      parseIntGeneric c ct T base first p neg hz = .ok ⟨bafter b p, .ok, some (IntSpec.signedValue neg (value b (brun b p) % 2 ^ 64))⟩) := by
  obtain ⟨r, e1, e2⟩ := intLoops_eq c hw hb h36 p hu
  obtain ⟨t1, t2, t3, t4, t5, t6⟩ := digitTables hb h2 h36
  obtain ⟨i, hi⟩ : ∃ i, value b (brun b p) % 2 ^ 64 = i := ⟨_, rfl⟩
  have hi64 : i < 2 ^ 64 := by rw [← hi]; exact Nat.mod_lt _ (by positivity)
  have hlen : p.length - (bafter b p).length = (brun b p).length := by
    have := congrArg List.length (brun_append b p)
    rw [List.length_append] at this; omega
  have hmod : (T.max % 2 ^ 64 + (if neg = true then 1 else 0)) % 2 ^ 64 = T.max + (if neg = true then 1 else 0) := by
    obtain ⟨m1, m2⟩ := IntType.max_lt hT
    rw [Nat.mod_eq_of_lt m1]
    apply Nat.mod_eq_of_lt
    split
    · have := m2 (hneg (by assumption)); omega
    · omega
  unfold parseIntGeneric
  rw [e1, ok_bind]
  simp only
  rw [e2, hi, ok_bind]
  simp only
  rw [hlen]
  by_cases hz0 : brun b p = []
  · refine ⟨fun _ => ?_, fun h => absurd hz0 h, fun h => absurd hz0 h⟩
    rw [hz0, if_pos (show ([] : List Nat).length = 0 from rfl)]
    cases hz <;> rfl
  · have hl : (brun b p).length ≠ 0 := by rw [Ne, List.length_eq_zero_iff]; exact hz0
    refine ⟨fun h => absurd h hz0, fun _ ho => ?_, fun _ ho => ?_⟩
    · rw [if_neg hl, t1, ok_bind]
      by_cases h1 : (brun b p).length > maxDigitsOf b
      · rw [if_pos h1]; rfl
      · rw [if_neg h1, t2, ok_bind]
        by_cases h2 : (brun b p).length = maxDigitsOf b ∧ i < b ^ (maxDigitsOf b - 1)
        · rw [if_pos h2]; rfl
        · rw [if_neg h2, hmod, if_pos]
          · rfl
          · rcases ho with h | h | ⟨h, h'⟩
            · exact absurd h h1
            · exact absurd h h2
            · rw [h]; simpa using h'
    · unfold Overflow at ho
      push Not at ho
      obtain ⟨o1, o2, o3⟩ := ho
      rw [if_neg hl, t1, ok_bind, if_neg (by omega), t2, ok_bind, if_neg (by intro h; exact absurd h.2 (by have := o2 h.1; omega)), hmod, if_neg]
      swap
      · intro h
        simp only [Bool.and_eq_true, Bool.not_eq_true', decide_eq_true_eq] at h
        exact absurd h.2 (by have := o3 h.1; omega)
      cases neg with
      | false =>
        rw [if_neg (by simp), IntType.cast_nat hT]
        · rfl
        · cases hu : T.isU64 with
          | false => simpa using o3 hu
          | true =>
            obtain ⟨k1, k2⟩ := hT.2.2.2 hu
            unfold IntType.max; rw [k1, k2]; simp; omega
      | true =>
        have hs := hneg rfl
        rw [if_pos rfl, negativeValue_eq hT hs]
        · rfl
        · cases hu : T.isU64 with
          | false => simpa using o3 hu
          | true => rw [(hT.2.2.2 hu).2] at hs; cases hs

end FastFloat
