import Verif.Proofs.IntFast
import Verif.Proofs.Api
/-
# Integer parsing at the API level
-/
set_option linter.unusedSimpArgs false

namespace FastFloat
open IntSpec ApiSpec

/-! ### Leading zeros -/

theorem skipZeros_split : ∀ (t : List Nat), ∃ k, t = List.replicate k 48 ++ skipZeroUnits t ∧ NoZero (skipZeroUnits t) := by
  intro t
  induction t with
  | nil => exact ⟨0, rfl, fun u t h => by cases h⟩
  | cons u t ih =>
    obtain ⟨k, h1, h2⟩ := ih
    unfold skipZeroUnits
    by_cases hu : u = 48
    · rw [if_pos (by simp [hu, ch0])]
      exact ⟨k + 1, by rw [List.replicate_succ, List.cons_append, ← h1, hu], h2⟩
    · rw [if_neg (by simp [hu, ch0])]
      exact ⟨0, rfl, fun v t' h => by cases h; exact hu⟩

theorem digit48 : digit 48 = 0 := by decide

theorem value_zeros (b k : Nat) (l : List Nat) : value b (List.replicate k 48 ++ l) = value b l := by
  rw [value_append]
  have : value b (List.replicate k 48) = 0 := by
    induction k with
    | zero => rfl
    | succ k ih => rw [List.replicate_succ, value_cons, ih, digit48]; simp
  rw [this]; simp

theorem brun_zeros {b : Nat} (hb : 2 ≤ b) (k : Nat) (l : List Nat) :
    brun b (List.replicate k 48 ++ l) = List.replicate k 48 ++ brun b l ∧ bafter b (List.replicate k 48 ++ l) = bafter b l := by
  have := brun_unique (b := b) (ds := List.replicate k 48 ++ brun b l) (rest := bafter b l) (by
    intro u hu
    rcases List.mem_append.1 hu with h | h
    · rw [List.eq_of_mem_replicate h, digit48]; omega
    · exact brun_digit h) (fun u h => bafter_head h)
  rw [List.append_assoc, brun_append] at this
  exact this

/-- The significant digits: those after the leading zeros. -/
def core (b : Nat) (t : List Nat) : List Nat := brun b (skipZeroUnits t)

theorem core_facts {b : Nat} (hb : 2 ≤ b) (t : List Nat) :
    value b (core b t) = value b (brun b t) ∧ bafter b (skipZeroUnits t) = bafter b t ∧ ((skipZeroUnits t).length < t.length ∨ core b t = brun b t) ∧
      (core b t = [] → (brun b t = [] ↔ ¬ (skipZeroUnits t).length < t.length) ∧ value b (brun b t) = 0) ∧
      (core b t ≠ [] → brun b t ≠ []) ∧
      (∀ u l, core b t = u :: l → 1 ≤ digit u) := by
  obtain ⟨k, h1, h2⟩ := skipZeros_split t
  obtain ⟨z1, z2⟩ := brun_zeros hb k (skipZeroUnits t)
  rw [← h1] at z1 z2
  have hlen : t.length = k + (skipZeroUnits t).length := by
    have := congrArg List.length h1
    rwa [List.length_append, List.length_replicate] at this
  have hv : value b (core b t) = value b (brun b t) := by rw [z1, value_zeros]; rfl
  refine ⟨hv, z2.symm, ?_, ?_, ?_, ?_⟩
  · rcases Nat.eq_zero_or_pos k with hk | hk
    · right; rw [z1, hk]; rfl
    · left; omega
  · intro hc
    refine ⟨?_, by rw [← hv, hc]; rfl⟩
    rw [z1, show brun b (skipZeroUnits t) = [] from hc, List.append_nil, List.replicate_eq_nil_iff]
    omega
  · intro hc h
    rw [z1] at h
    exact hc (List.append_eq_nil_iff.1 h).2
  · intro u l h
    have h3 : skipZeroUnits t = u :: (l ++ bafter b (skipZeroUnits t)) := by
      have := brun_append b (skipZeroUnits t)
      rw [show brun b (skipZeroUnits t) = u :: l from h] at this
      exact this.symm
    have := h2 u _ h3
    have := digit_zero (u := u)
    omega

/-! ### The overflow check -/

/-- Bounds on a number of `len` significant digits. -/
theorem core_bounds {b : Nat} {t : List Nat} (hb : 2 ≤ b) (hne : core b t ≠ []) :
    b ^ ((core b t).length - 1) ≤ value b (core b t) ∧ value b (core b t) < b ^ (core b t).length := by
  refine ⟨?_, value_lt (fun u h => brun_digit h)⟩
  obtain ⟨u, l, e⟩ := List.exists_cons_of_ne_nil hne
  have := (core_facts hb t).2.2.2.2.2 u l e
  rw [e]
  simpa using value_ge (b := b) (l := l) this

/-- The check is right when the value fits 64 bits, and for types of at most 32 bits. -/
theorem overflow_iff {T : IntType} (hT : T.WF) {b : Nat} (hb : 2 ≤ b) (h36 : b ≤ 36) {t : List Nat} (neg : Bool) (hneg : neg = true → T.signed = true)
    (h : value b (core b t) < 2 ^ 64 ∨ T.bits ≤ 32) :
    Overflow T b neg (core b t).length (value b (core b t) % 2 ^ 64) ↔ T.max + (if neg then 1 else 0) < value b (core b t) := by
  obtain ⟨_, _, t3, t4, t5, t6⟩ := digitTables (base := (b : Int)) rfl hb h36
  obtain ⟨V, hV⟩ : ∃ V, value b (core b t) = V := ⟨_, rfl⟩
  obtain ⟨n, hn⟩ : ∃ n, (core b t).length = n := ⟨_, rfl⟩
  obtain ⟨md, hmd⟩ : ∃ md, maxDigitsOf b = md := ⟨_, rfl⟩
  have hmax := IntType.max_lt hT
  have hsm : T.bits ≤ 32 → T.max + (if neg then 1 else 0) < 2 ^ 32 := by
    intro h32
    unfold IntType.max
    have hp : 2 ^ T.bits ≤ 2 ^ 32 := Nat.pow_le_pow_right (by norm_num) h32
    have hp1 : 2 ^ (T.bits - 1) ≤ 2 ^ 31 := Nat.pow_le_pow_right (by norm_num) (by omega)
    have hpos : 0 < 2 ^ T.bits := by positivity
    have hpos1 : 0 < 2 ^ (T.bits - 1) := by positivity
    cases neg with
    | true => rw [if_pos (hneg rfl), if_pos rfl]; omega
    | false => rw [if_neg (by simp : ¬ (false = true))]; split <;> omega
  have hMlt : T.max + (if neg then 1 else 0) < 2 ^ 64 := by
    cases neg with
    | true => have := hmax.2 (hneg rfl); simp; omega
    | false => simp; exact hmax.1
  have hU : T.isU64 = true → T.max + (if neg then 1 else 0) = 2 ^ 64 - 1 := by
    intro hu
    obtain ⟨k1, k2⟩ := hT.2.2.2 hu
    have : neg = false := by
      cases neg with
      | true => rw [hneg rfl] at k2; cases k2
      | false => rfl
    rw [this]
    unfold IntType.max; rw [k1, k2]; simp
  obtain ⟨M, hM⟩ : ∃ M, T.max + (if neg then 1 else 0) = M := ⟨_, rfl⟩
  have hU8 : T.isU64 = true → T.bits ≤ 32 → False := by
    intro h1 h2
    have := (hT.2.2.2 h1).1
    omega
  unfold Overflow
  rw [hM] at hsm hMlt hU ⊢
  rw [hmd] at t3 t4 t5 t6
  rw [hV] at h
  rw [hn, hmd, hV]
  by_cases hne : core b t = []
  · have hV0 : V = 0 := by rw [← hV, hne]; rfl
    have hn0 : n = 0 := by rw [← hn, hne]; rfl
    subst hV0 hn0
    constructor
    · rintro (h | ⟨h, _⟩ | ⟨_, h⟩)
      · omega
      · omega
      · simpa using h
    · intro h; omega
  · obtain ⟨b1, b2⟩ := core_bounds hb hne
    rw [hV, hn] at b1 b2
    have hn1 : 1 ≤ n := by rw [← hn]; exact List.length_pos_iff.2 hne
    rcases Nat.lt_trichotomy n md with c1 | c1 | c1
    · have : b ^ n ≤ b ^ (md - 1) := Nat.pow_le_pow_right (by omega) (by omega)
      rw [Nat.mod_eq_of_lt (by omega)]
      constructor
      · rintro (h' | ⟨h', _⟩ | ⟨_, h'⟩)
        · omega
        · omega
        · exact h'
      · intro h'
        refine Or.inr (Or.inr ⟨?_, h'⟩)
        cases hu : T.isU64 with
        | false => rfl
        | true => have := hU hu; omega
    · rw [c1] at b1 b2
      rcases h with h | h
      · rw [Nat.mod_eq_of_lt h]
        constructor
        · rintro (h' | ⟨_, h'⟩ | ⟨_, h'⟩)
          · omega
          · omega
          · exact h'
        · intro h'
          refine Or.inr (Or.inr ⟨?_, h'⟩)
          cases hu : T.isU64 with
          | false => rfl
          | true => have := hU hu; omega
      · have h4 := hsm h
        constructor
        · intro _; omega
        · intro _
          rcases Nat.lt_or_ge (V % 2 ^ 64) (b ^ (md - 1)) with h' | h'
          · exact Or.inr (Or.inl ⟨c1, h'⟩)
          · refine Or.inr (Or.inr ⟨?_, by omega⟩)
            cases hu : T.isU64 with
            | false => rfl
            | true => exact absurd h (fun h => hU8 hu h)
    · have : b ^ md ≤ b ^ (n - 1) := Nat.pow_le_pow_right (by omega) (by omega)
      constructor
      · intro _; omega
      · intro _; exact Or.inl c1

/-! ### From the digits on -/

theorem parseIntDigits_eq (c : Cfg) {ct : CharType} (hw : ct.WF) {T : IntType} (hT : T.WF) {base : Int} {b : Nat} (hb : base = (b : Int)) (h2 : 2 ≤ b)
    (h36 : b ≤ 36) (first t : List Nat) (hu : ∀ u ∈ t, u < 2 ^ (8 * ct.width)) (neg : Bool) (hneg : neg = true → T.signed = true) :
    (brun b t = [] → parseIntDigits c ct T base first (skipZeroUnits t) neg (decide ((skipZeroUnits t).length < t.length)) =
      .ok ⟨first, .invalidArgument, none⟩) ∧
    (brun b t ≠ [] → Overflow T b neg (core b t).length (value b (core b t) % 2 ^ 64) →
      parseIntDigits c ct T base first (skipZeroUnits t) neg (decide ((skipZeroUnits t).length < t.length)) = .ok ⟨bafter b t, .outOfRange, none⟩) ∧
    (brun b t ≠ [] → ¬ Overflow T b neg (core b t).length (value b (core b t) % 2 ^ 64) →
      parseIntDigits c ct T base first (skipZeroUnits t) neg (decide ((skipZeroUnits t).length < t.length)) =
        .ok ⟨bafter b t, .ok, some (IntSpec.signedValue neg (value b (core b t) % 2 ^ 64))⟩) := by
  obtain ⟨f1, f2, f3, f4, f5, f6⟩ := core_facts h2 t
  obtain ⟨k, hk, hnz⟩ := skipZeros_split t
  have hup : ∀ u ∈ skipZeroUnits t, u < 2 ^ (8 * ct.width) := fun u h => hu u (by rw [hk]; exact List.mem_append_right _ h)
  obtain ⟨p, hp⟩ : ∃ p, skipZeroUnits t = p := ⟨_, rfl⟩
  obtain ⟨hz, hhz⟩ : ∃ hz, decide (p.length < t.length) = hz := ⟨_, rfl⟩
  have hcore : core b t = brun b p := by unfold core; rw [hp]
  rw [hp] at hup f2 f4 hnz ⊢
  rw [hhz]
  have ht6 := (digitTables (base := (b : Int)) rfl h2 h36).2.2.2.2.2
  -- it is enough to know what happens in terms of `p`
  have key : ∀ X : Exec IntResult,
      (brun b p = [] → X = .ok (if hz then ⟨bafter b p, .ok, some 0⟩ else ⟨first, .invalidArgument, none⟩)) ∧
      (brun b p ≠ [] → Overflow T b neg (brun b p).length (value b (brun b p) % 2 ^ 64) → X = .ok ⟨bafter b p, .outOfRange, none⟩) ∧
      (brun b p ≠ [] → ¬ Overflow T b neg (brun b p).length (value b (brun b p) % 2 ^ 64) →
        X = .ok ⟨bafter b p, .ok, some (IntSpec.signedValue neg (value b (brun b p) % 2 ^ 64))⟩) →
      (brun b t = [] → X = .ok ⟨first, .invalidArgument, none⟩) ∧
      (brun b t ≠ [] → Overflow T b neg (core b t).length (value b (core b t) % 2 ^ 64) → X = .ok ⟨bafter b t, .outOfRange, none⟩) ∧
      (brun b t ≠ [] → ¬ Overflow T b neg (core b t).length (value b (core b t) % 2 ^ 64) →
        X = .ok ⟨bafter b t, .ok, some (IntSpec.signedValue neg (value b (core b t) % 2 ^ 64))⟩) := by
    rintro X ⟨x1, x2, x3⟩
    rw [← f2, hcore]
    by_cases hc : brun b p = []
    · obtain ⟨g1, g2⟩ := f4 (by rw [hcore]; exact hc)
      have hx := x1 hc
      refine ⟨fun h => ?_, fun _ ho => ?_, fun h _ => ?_⟩
      · rw [hx, ← hhz, decide_eq_false (g1.1 h)]; rfl
      · exfalso
        rw [hc] at ho
        rcases ho with h | ⟨h, _⟩ | ⟨_, h⟩
        · simp at h
        · simp at h; omega
        · simp [value] at h
      · have : p.length < t.length := by
          by_contra hcon
          exact h (g1.2 hcon)
        rw [hx, ← hhz, decide_eq_true this, hc]
        cases neg <;> rfl
    · have : brun b t ≠ [] := f5 (by rw [hcore]; exact hc)
      exact ⟨fun h => absurd h this, fun _ => x2 hc, fun _ => x3 hc⟩
  apply key
  have hgen := parseIntGeneric_eq c hw hT hb h2 h36 first p hup neg hz hneg
  have hsmall : T.bits ≤ 32 → ∀ M, T.max = M → neg = false →
      (Overflow T b neg (brun b p).length (value b (brun b p) % 2 ^ 64) ↔ M < value b (brun b p)) := by
    intro h32 M hM hn
    have := overflow_iff hT h2 h36 (t := t) neg hneg (Or.inr h32)
    rw [hcore, hM, hn] at this
    rw [hn]; simpa using this
  unfold parseIntDigits
  by_cases c8 : (T.isU8 && decide (ct.width = 1) && decide (base = 10)) = true
  · rw [if_pos c8]
    simp only [Bool.and_eq_true, decide_eq_true_eq] at c8
    obtain ⟨⟨a1, a2⟩, a3⟩ := c8
    obtain ⟨w1, w2⟩ := hT.2.1 a1
    have hb10 : b = 10 := by omega
    have hn : neg = false := by
      cases hn : neg with
      | false => rfl
      | true => rw [hneg hn] at w2; cases w2
    have hM : T.max = 255 := by unfold IntType.max; rw [w1, w2]; rfl
    have hub : ∀ u ∈ p, u < 256 := by
      intro u h
      have := hup u h
      rw [a2] at this; exact this
    have hs := hsmall (by omega) 255 hM hn
    have h8 := parseU8_eq c a2 first p hub hnz hz
    subst hb10
    refine ⟨h8.1, fun h ho => h8.2.1 h (hs.1 ho), fun h ho => ?_⟩
    have hv : ¬ 255 < value 10 (brun 10 p) := fun h' => ho (hs.2 h')
    rw [h8.2.2 h (by omega), Nat.mod_eq_of_lt (by omega), hn]
    rfl
  rw [if_neg c8]
  by_cases c16 : (T.isU16 && decide (ct.width = 1) && decide (base = 10)) = true
  · rw [if_pos c16]
    simp only [Bool.and_eq_true, decide_eq_true_eq] at c16
    obtain ⟨⟨a1, a2⟩, a3⟩ := c16
    obtain ⟨w1, w2⟩ := hT.2.2.1 a1
    have hb10 : b = 10 := by omega
    have hn : neg = false := by
      cases hn : neg with
      | false => rfl
      | true => rw [hneg hn] at w2; cases w2
    have hM : T.max = 65535 := by unfold IntType.max; rw [w1, w2]; rfl
    have hub : ∀ u ∈ p, u < 256 := by
      intro u h
      have := hup u h
      rw [a2] at this; exact this
    have hs := hsmall (by omega) 65535 hM hn
    obtain ⟨o, e1, e2⟩ := parseU16_eq c hw a2 first p hub hnz hz
    rw [e1]
    cases o with
    | none => exact hgen
    | some r =>
      obtain ⟨h8, h8', h8''⟩ := e2 r rfl
      subst hb10
      refine ⟨fun h => congrArg Except.ok (h8 h), fun h ho => congrArg Except.ok (h8' h (hs.1 ho)), fun h ho => ?_⟩
      have hv : ¬ 65535 < value 10 (brun 10 p) := fun h' => ho (hs.2 h')
      show Except.ok r = _
      rw [h8'' h (by omega), Nat.mod_eq_of_lt (by omega), hn]
      rfl
  · rw [if_neg c16]
    exact hgen

/-! ### Sign -/

theorem not_digit_sign {b : Nat} (h : b ≤ 36) : ¬ digit 45 < b ∧ ¬ digit 43 < b := by
  have : digit 45 = 36 ∧ digit 43 = 36 := by decide
  omega

/-- The text behind the sign, as the code sees it. -/
theorem parseIntString_eq (c : Cfg) {ct : CharType} {T : IntType} (first : List Nat) (opt : Options) (hne : first ≠ []) :
    (T.signed = false → first.head? = some 45 → parseIntString c ct T first opt = .ok ⟨first, .invalidArgument, none⟩) ∧
    (∀ neg t, (T.signed = true ∨ first.head? ≠ some 45) →
      ((neg = true ∧ first = 45 :: t) ∨ (neg = false ∧ plusFlag (c.eff opt) = true ∧ first = 43 :: t) ∨
        (neg = false ∧ first = t ∧ first.head? ≠ some 45 ∧ (plusFlag (c.eff opt) = true → first.head? ≠ some 43))) →
      parseIntString c ct T first opt = parseIntDigits c ct T opt.base first (skipZeroUnits t) neg (decide ((skipZeroUnits t).length < t.length))) := by
  obtain ⟨u, l, rfl⟩ := List.exists_cons_of_ne_nil hne
  have hplus : (adjustForFeatureMacros c opt.format).has Fmt.allowLeadingPlus = plusFlag (c.eff opt) := by rw [adjust_eq, plus_eq]
  constructor
  · intro hs h
    cases h
    unfold parseIntString
    rw [show deref (45 :: l) = .ok 45 from rfl, ok_bind, if_pos (by rw [hs]; rfl)]
    rfl
  · intro neg t hcond h
    unfold parseIntString
    rw [show deref (u :: l) = .ok u from rfl, ok_bind]
    rw [if_neg (by
      intro h'
      simp only [Bool.and_eq_true, Bool.not_eq_true', beq_iff_eq] at h'
      rcases hcond with h'' | h''
      · rw [h''] at h'; cases h'.1
      · exact h'' (by rw [show u = 45 from h'.2]; rfl))]
    unfold skipIntSign
    rw [hplus]
    rcases h with ⟨h1, h2⟩ | ⟨h1, h2, h3⟩ | ⟨h1, h2, h3, h4⟩
    · cases h2
      rw [if_pos (by rfl), show advance (45 :: l) = .ok l from rfl, ok_bind, h1]
      rfl
    · cases h3
      rw [if_pos (by rw [h2]; rfl), show advance (43 :: l) = .ok l from rfl, ok_bind, h1]
      rfl
    · have hu45 : u ≠ 45 := by rintro rfl; exact h3 rfl
      rw [if_neg, ok_bind, h1, h2]
      · have : (u == chMinus) = false := by simpa [chMinus] using hu45
        rw [this]
      · intro h'
        simp only [Bool.or_eq_true, Bool.and_eq_true, beq_iff_eq] at h'
        rcases h' with h' | ⟨h', h''⟩
        · exact hu45 h'
        · exact h4 h' (by rw [show u = 43 from h'']; rfl)

end FastFloat
