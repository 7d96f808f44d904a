import Verif.Props.CompleteInt
/-
# C54: the integer overloads for `__int128` and `unsigned __int128`

With GNU extensions `std::is_integral<__int128>` holds, so the integer overloads accept these types although the code counts in `uint64_t`.
-/
set_option linter.unusedSimpArgs false
namespace FastFloat
open IntSpec ApiSpec

theorem wide_max {T : IntType} (hT : T.Wide) : T.max % 2 ^ 64 = 2 ^ 64 - 1 := by
  unfold IntType.max
  rw [hT.1]
  cases T.signed <;> norm_num

theorem wide_cast {T : IntType} (hT : T.Wide) {i : Nat} (h : i < 2 ^ 64) : T.cast (i : Int) = (i : Int) := by
  unfold IntType.cast
  rw [hT.1]
  have h0 : ((i : Int)) % 2 ^ 128 = i := Int.emod_eq_of_lt (by omega) (by norm_num; omega)
  simp only [h0]
  rw [if_neg]
  rintro ⟨_, h1⟩
  norm_num at h1
  omega

/-- Without a minus sign the digits are read as for `uint64_t`. -/
theorem wide_positive (c : Cfg) {ct : CharType} (hw : ct.WF) {T : IntType} (hT : T.Wide) {base : Int} {b : Nat} (hb : base = (b : Int))
    (h36 : b ≤ 36) (first p : List Nat) (hu : ∀ u ∈ p, u < 2 ^ (8 * ct.width)) (hz : Bool) :
    parseIntDigits c ct T base first p false hz = parseIntDigits c ct uint64 base first p false hz := by
  obtain ⟨r, e1, e2⟩ := intLoops_eq c hw hb h36 p hu
  obtain ⟨i, hi⟩ : ∃ i, value b (brun b p) % 2 ^ 64 = i := ⟨_, rfl⟩
  have hi64 : i < 2 ^ 64 := by rw [← hi]; exact Nat.mod_lt _ (by positivity)
  rw [hi] at e2
  unfold parseIntDigits
  rw [hT.2.1, hT.2.2.1]
  simp only [uint64, Bool.false_and, Bool.false_eq_true, if_false]
  unfold parseIntGeneric
  simp only [e1, e2, ok_bind]
  split
  · rfl
  · congr 1; funext md
    split
    · rfl
    · congr 1; funext ms
      split
      · rfl
      · rw [wide_max hT, if_neg (by simp; omega), if_neg (by simp), if_neg (by simp), if_neg (by simp), wide_cast hT hi64]
        rw [IntType.cast_nat (T := ⟨64, false, false, false, true⟩) (by decide) (by unfold IntType.max; simp; omega)]

/-- With a minus sign every number but zero is out of range. -/
theorem wide_negative (c : Cfg) {ct : CharType} (hw : ct.WF) {T : IntType} (hT : T.Wide) {base : Int} {b : Nat} (hb : base = (b : Int)) (h2 : 2 ≤ b)
    (h36 : b ≤ 36) (first t : List Nat) (hu : ∀ u ∈ t, u < 2 ^ (8 * ct.width)) :
    (brun b t = [] → parseIntDigits c ct T base first (skipZeroUnits t) true (decide ((skipZeroUnits t).length < t.length)) =
      .ok ⟨first, .invalidArgument, none⟩) ∧
    (brun b t ≠ [] → parseIntDigits c ct T base first (skipZeroUnits t) true (decide ((skipZeroUnits t).length < t.length)) =
      .ok (if value b (brun b t) = 0 then ⟨bafter b t, .ok, some 0⟩ else ⟨bafter b t, .outOfRange, none⟩)) := by
  obtain ⟨f1, f2, f3, f4, f5, f6⟩ := core_facts h2 t
  obtain ⟨k, hk, hnz⟩ := skipZeros_split t
  have hup : ∀ u ∈ skipZeroUnits t, u < 2 ^ (8 * ct.width) := fun u h => hu u (by rw [hk]; exact List.mem_append_right _ h)
  have hcb : core b t ≠ [] → _ := core_bounds h2
  obtain ⟨p, hp⟩ : ∃ p, skipZeroUnits t = p := ⟨_, rfl⟩
  obtain ⟨hz, hhz⟩ : ∃ hz, decide (p.length < t.length) = hz := ⟨_, rfl⟩
  have hcore : core b t = brun b p := by unfold core; rw [hp]
  rw [hp] at hup f2 f4 ⊢
  rw [hcore] at hcb f4 f5 f1
  rw [hhz, ← f1, ← f2]
  obtain ⟨r, e1, e2⟩ := intLoops_eq c hw hb h36 p hup
  obtain ⟨t1, t2, t3, t4, t5, t6⟩ := digitTables hb h2 h36
  obtain ⟨i, hi⟩ : ∃ i, value b (brun b p) % 2 ^ 64 = i := ⟨_, rfl⟩
  rw [hi] at e2
  have hlen : p.length - (bafter b p).length = (brun b p).length := by
    have := congrArg List.length (brun_append b p)
    rw [List.length_append] at this; omega
  unfold parseIntDigits
  rw [hT.2.1, hT.2.2.1]
  simp only [Bool.false_and, Bool.false_eq_true, if_false]
  unfold parseIntGeneric
  simp only [e1, e2, ok_bind, hlen]
  by_cases hc : brun b p = []
  · obtain ⟨g1, g2⟩ := f4 hc
    rw [hc, if_pos (show ([] : List Nat).length = 0 from rfl)]
    refine ⟨fun h => ?_, fun h => ?_⟩
    · rw [← hhz, decide_eq_false (g1.1 h)]; rfl
    · have : p.length < t.length := by
        by_contra hcon
        exact h (g1.2 hcon)
      rw [← hhz, decide_eq_true this, if_pos rfl, if_pos (by rfl)]; rfl
  · have hne : brun b t ≠ [] := f5 hc
    refine ⟨fun h => absurd h hne, fun _ => ?_⟩
    obtain ⟨b1, b2⟩ := hcb hc
    have hl : (brun b p).length ≠ 0 := by rw [Ne, List.length_eq_zero_iff]; exact hc
    have hpos : 0 < b ^ ((brun b p).length - 1) := by positivity
    rw [if_neg hl, if_neg (show ¬ value b (brun b p) = 0 by omega), t1, ok_bind]
    by_cases h1 : (brun b p).length > maxDigitsOf b
    · rw [if_pos h1]; rfl
    · rw [if_neg h1, t2, ok_bind]
      by_cases h2' : (brun b p).length = maxDigitsOf b ∧ i < b ^ (maxDigitsOf b - 1)
      · rw [if_pos h2']; rfl
      · rw [if_neg h2', if_pos]
        · rfl
        · rw [wide_max hT, hT.2.2.2]
          have : 0 < i := by
            rcases Nat.lt_or_ge (brun b p).length (maxDigitsOf b) with h3 | h3
            · have : b ^ (brun b p).length ≤ b ^ (maxDigitsOf b - 1) := Nat.pow_le_pow_right (by omega) (by omega)
              rw [Nat.mod_eq_of_lt (by omega)] at hi
              omega
            · by_contra h0
              exact h2' ⟨by omega, by omega⟩
          simpa using this

/-- Unsigned, or without a minus sign: as `uint64_t`. -/
theorem wide_unsigned (c : Cfg) {ct : CharType} {T : IntType} (hT : T.Wide) {s : List Nat} (opt : Options) (hin : Input ct s)
    (hs : T.signed = false ∨ (textOf c opt s).head? ≠ some 45) : fromCharsIntApi c ct T s opt = fromCharsIntApi c ct uint64 s opt := by
  rw [intCall_eq, intCall_eq]
  split
  · rfl
  rename_i h0
  push Not at h0
  congr 1
  obtain ⟨g1, g2, g3⟩ := h0
  obtain ⟨b, hb⟩ : ∃ b : Nat, opt.base = (b : Int) := ⟨opt.base.toNat, by omega⟩
  have hmem : ∀ u ∈ codeBody ct (c.eff opt) s, u < 2 ^ (8 * ct.width) := codeBody_mem (fun u h => (hin.units u h).1)
  rw [hin.body_eq] at g1 hmem ⊢
  obtain ⟨first, hfirst⟩ : ∃ first, textOf c opt s = first := ⟨_, rfl⟩
  rw [hfirst] at g1 hs hmem ⊢
  have hne : first ≠ [] := fun hh => g1 (by rw [hh]; rfl)
  have p1 := parseIntString_eq c (ct := ct) (T := T) first opt hne
  have p2 := parseIntString_eq c (ct := ct) (T := uint64) first opt hne
  by_cases h45 : first.head? = some 45
  · have : T.signed = false := by
      rcases hs with h | h
      · exact h
      · exact absurd h45 h
    rw [p1.1 this h45, p2.1 rfl h45]
  · obtain ⟨neg, t, hsp⟩ := sign_split (plusFlag (c.eff opt)) first
    have hneg : neg = false := by
      cases neg with
      | false => rfl
      | true => exact absurd ((head_of_split hsp).2 rfl) h45
    have hut : ∀ u ∈ t, u < 2 ^ (8 * ct.width) := by
      intro u hu'
      apply hmem
      rcases hsp with ⟨_, h1⟩ | ⟨_, _, h1⟩ | ⟨_, h1, _⟩ <;> rw [h1]
      · exact List.mem_cons_of_mem _ hu'
      · exact List.mem_cons_of_mem _ hu'
      · exact hu'
    obtain ⟨k, hk, _⟩ := skipZeros_split t
    rw [p1.2 neg t (Or.inr h45) hsp, p2.2 neg t (Or.inr h45) hsp, hneg,
      wide_positive c hin.wf hT hb (by omega) first _ (fun u h => hut u (by rw [hk]; exact List.mem_append_right _ h))]

/-- Signed, with a minus sign. -/
theorem wide_minus (c : Cfg) {ct : CharType} {T : IntType} (hT : T.Wide) {s t : List Nat} (opt : Options) (hin : Input ct s)
    (hs : T.signed = true) (ht : textOf c opt s = 45 :: t) (h2 : 2 ≤ opt.base) (h36 : opt.base ≤ 36) :
    (brun opt.base.toNat t = [] → fromCharsIntApi c ct T s opt = .ok ⟨s.length - (textOf c opt s).length, .invalidArgument, none⟩) ∧
    (brun opt.base.toNat t ≠ [] → fromCharsIntApi c ct T s opt = .ok (if value opt.base.toNat (brun opt.base.toNat t) = 0
      then ⟨s.length - (bafter opt.base.toNat t).length, .ok, some 0⟩ else ⟨s.length - (bafter opt.base.toNat t).length, .outOfRange, none⟩)) := by
  obtain ⟨b, hb⟩ : ∃ b : Nat, opt.base = (b : Int) := ⟨opt.base.toNat, by omega⟩
  have hbn : opt.base.toNat = b := by omega
  have hmem : ∀ u ∈ codeBody ct (c.eff opt) s, u < 2 ^ (8 * ct.width) := codeBody_mem (fun u h => (hin.units u h).1)
  rw [intCall_eq, hin.body_eq, if_neg (by rw [ht]; simp; omega), hbn]
  rw [hin.body_eq, ht] at hmem
  have p1 := (parseIntString_eq c (ct := ct) (T := T) (45 :: t) opt (by simp)).2 true t (Or.inl hs) (Or.inl ⟨rfl, rfl⟩)
  have := wide_negative c hin.wf hT hb (by omega) (by omega) (45 :: t) t (fun u h => hmem u (List.mem_cons_of_mem _ h))
  rw [ht, p1]
  refine ⟨fun h => ?_, fun h => ?_⟩
  · rw [this.1 h]; rfl
  · rw [this.2 h]
    by_cases h0 : value b (brun b t) = 0
    · rw [if_pos h0, if_pos h0]; rfl
    · rw [if_neg h0, if_neg h0]; rfl

theorem wide_rejects {c : Cfg} {ct : CharType} {T : IntType} (hT : T.Wide) {opt : Options} : IntRejects c ct T opt := by
  intro s hin h
  by_cases hs : T.signed = false ∨ (textOf c opt s).head? ≠ some 45
  · rw [wide_unsigned c hT opt hin hs]
    apply C30_int_rejected c (by decide) opt hin
    rintro ⟨b, neg, ds, rest, hl⟩
    exact h ⟨b, neg, ds, rest, hl.base, hl.two, hl.max, hl.literal, fun hn => by have := hl.sign hn; simp [uint64] at this⟩
  · push Not at hs
    obtain ⟨h1, h2⟩ := hs
    obtain ⟨t, ht⟩ : ∃ t, textOf c opt s = 45 :: t := by
      cases hh : textOf c opt s with
      | nil => rw [hh] at h2; cases h2
      | cons u l => rw [hh] at h2; cases h2; exact ⟨l, rfl⟩
    have hsg : T.signed = true := by simpa using h1
    by_cases hb : 2 ≤ opt.base ∧ opt.base ≤ 36
    · apply (wide_minus c hT opt hin hsg ht hb.1 hb.2).1
      by_contra hne
      refine h ⟨opt.base.toNat, true, brun opt.base.toNat t, bafter opt.base.toNat t, by omega, by omega, by omega, ⟨Or.inl ⟨rfl, ?_⟩, fun u h => brun_digit h, hne, fun u h => bafter_head h⟩, fun _ => hsg⟩
      rw [brun_append, ht]
    · rw [intCall_eq, hin.body_eq, if_pos (by omega)]

theorem wide_numberSpec {c : Cfg} {ct : CharType} {T : IntType} (hT : T.Wide) {opt : Options} :
    IntNumberSpec c ct T opt (WideInt opt.base.toNat) := by
  intro s neg ds rest hin h
  refine ⟨?_, ?_⟩
  · cases neg with
    | true =>
      by_cases h0 : value opt.base.toNat ds = 0
      · exact ⟨_, _, .fits (by omega) (Or.inr h0)⟩
      · exact ⟨_, _, .negative rfl h0⟩
    | false =>
      by_cases h0 : value opt.base.toNat ds < 2 ^ 64
      · exact ⟨_, _, .fits h0 (Or.inl rfl)⟩
      · by_cases he : Escapes opt.base.toNat (value opt.base.toNat ds)
        · exact ⟨_, _, .wrapped he rfl⟩
        · exact ⟨_, _, .overflow (by omega) rfl he⟩
  · have hsplit := literal_split h.max h.literal
    have hbase := h.base
    have hbmax := h.max
    have hbtwo := h.two
    cases neg with
    | true =>
      obtain ⟨hs, hr1, hr2⟩ := hsplit
      have ht : textOf c opt s = 45 :: (ds ++ rest) := by
        rcases hs with ⟨_, h1⟩ | ⟨h1, _⟩ | ⟨h1, _⟩
        · exact h1
        · cases h1
        · cases h1
      have hm := (wide_minus c hT opt hin (h.sign rfl) ht (by omega) (by omega)).2
      rw [hr1, hr2] at hm
      have hm := hm h.literal.nonempty
      intro code v hv
      cases hv with
      | fits h1 h2 =>
        have h0 : value opt.base.toNat ds = 0 := by
          rcases h2 with h2 | h2
          · cases h2
          · exact h2
        rw [if_pos h0] at hm
        exact ⟨.ok, rfl, by rw [hm, h0]; rfl⟩
      | wrapped _ h' => cases h'
      | overflow _ h' _ => cases h'
      | negative _ h' => rw [if_neg h'] at hm; exact ⟨.outOfRange, rfl, hm⟩
    | false =>
      have hl : IntLiteral c uint64 s opt opt.base.toNat false ds rest := ⟨h.base, h.two, h.max, h.literal, fun h => by cases h⟩
      have hu : fromCharsIntApi c ct T s opt = fromCharsIntApi c ct uint64 s opt := by
        apply wide_unsigned c hT opt hin
        right
        rw [Ne, head_of_split hsplit.1]; simp
      rw [hu]
      have hfit : ∀ V : Nat, Fits 64 false (IntSpec.signedValue false V) ↔ V < 2 ^ 64 := by
        intro V
        unfold Fits minValue maxValue IntSpec.signedValue
        norm_num
        omega
      have hmod : value opt.base.toNat ds % 2 ^ 64 < 2 ^ 64 := Nat.mod_lt _ (by positivity)
      intro code v hv
      cases hv with
      | fits h1 _ =>
        exact ⟨.ok, rfl, C27_int_exact c (T := uint64) (by decide) opt hin hl ((hfit _).2 h1)⟩
      | wrapped he _ =>
        exact ⟨.ok, rfl, (C28_undetected c (T := uint64) (by decide) opt hin hl he ((hfit _).2 hmod)).1⟩
      | overflow h1 _ he =>
        exact ⟨.outOfRange, rfl, C28_overflow_partial c (T := uint64) (by decide) opt hin hl (fun hf => by have := (hfit _).1 hf; omega) (fun hh => he hh.1)⟩
      | negative h1 _ => cases h1

/-- **C54**: the exact behaviour of the integer overloads for `__int128` and `unsigned __int128`: every input has exactly the result that `WideInt` describes.
In particular there is no undefined behaviour. -/
theorem C54_int128 (c : Cfg) {ct : CharType} {T : IntType} (hT : T.Wide) {s : List Nat} (opt : Options) (hin : Input ct s) (r : ApiInt) :
    fromCharsIntApi c ct T s opt = .ok r ↔
      r.off ≤ s.length ∧ IntCall T.signed (WideInt opt.base.toNat) (c.eff opt) opt.base (textOf c opt s) (s.drop r.off) r.ec.code r.value :=
  int_complete_of c opt (wide_rejects hT) hin (wide_numberSpec hT) r

/-- **C54**: there is always exactly one such result. -/
theorem C54_deterministic (c : Cfg) {ct : CharType} {T : IntType} (hT : T.Wide) {s : List Nat} (opt : Options) (hin : Input ct s) :
    ∃! r : Nat × Errc × Option Int,
      r.1 ≤ s.length ∧ IntCall T.signed (WideInt opt.base.toNat) (c.eff opt) opt.base (textOf c opt s) (s.drop r.1) r.2.1.code r.2.2 :=
  int_deterministic_of c opt (wide_rejects hT) hin (wide_numberSpec hT)

/-- **C54**: "-5" is a value of `__int128`, but it is reported as out of range; so is "18446744073709551616" for both types. -/
theorem C54_counterexample :
    fromCharsInt Cfg.x64 CharType.char int128 [45, 53] 10 = .ok ⟨2, .outOfRange, none⟩ ∧ Fits 128 true (-5) ∧
    fromCharsInt Cfg.x64 CharType.char uint128 [49, 56, 52, 52, 54, 55, 52, 52, 48, 55, 51, 55, 48, 57, 53, 53, 49, 54, 49, 54] 10 = .ok ⟨20, .outOfRange, none⟩ ∧
    Fits 128 false 18446744073709551616 :=
  ⟨by decide +kernel, by decide +kernel, by decide +kernel, by decide +kernel⟩

example : IntCall true (WideInt 10) 5 10 [45, 53] [] .range none :=
  ((C54_int128 Cfg.x64 (ct := CharType.char) (T := int128) ⟨rfl, rfl, rfl, rfl⟩ (s := [45, 53]) {} ⟨by decide, by decide, by decide⟩
    ⟨2, .outOfRange, none⟩).1 C54_counterexample.1).2
example : ∃! r : Nat × Errc × Option Int, r.1 ≤ 3 ∧ IntCall false (WideInt 10) (Cfg.x64.eff {}) 10 [50, 53, 54] ([50, 53, 54].drop r.1) r.2.1.code r.2.2 :=
  C54_deterministic Cfg.x64 (T := uint128) ⟨rfl, rfl, rfl, rfl⟩ {} (input_of_bytes (s := [50, 53, 54]) (by decide) (by decide))

end FastFloat
