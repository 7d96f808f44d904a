import Verif.Model.Findmax
import Verif.Props.Operators
import Verif.Props.Cells
import Verif.Props.Overloads
import Verif.Props.Lookahead
/-!
# C92: the greatest of many numbers
-/
set_option autoImplicit false

namespace FastFloat
open NumSpec FloatSpec ApiSpec Client

/-- A bit pattern that is not a NaN. -/
def Ordered (T : FloatTy) (b : Nat) : Prop := b < 2 * T.spec.signBit ∧ ¬ IsNaN T.spec b

/-- The place of a bit pattern in the order. -/
def rank (T : FloatTy) (b : Nat) : Int := if T.spec.signBit ≤ b then -((b - T.spec.signBit : Nat) : Int) else (b : Int)

theorem spec_inf_lt (T : FloatTy) : T.spec.inf < T.spec.signBit := by cases T <;> decide +kernel

theorem Ordered.cases {T : FloatTy} {b : Nat} (h : Ordered T b) :
    (b ≤ T.spec.inf ∧ rank T b = b) ∨ ∃ m, m ≤ T.spec.inf ∧ b = m + T.spec.signBit ∧ rank T b = -(m : Int) := by
  obtain ⟨h1, h2⟩ := h
  have hs := spec_inf_lt T
  unfold IsNaN at h2
  unfold rank
  rcases Nat.lt_or_ge b T.spec.signBit with hb | hb
  · left
    rw [Nat.mod_eq_of_lt hb] at h2
    rw [if_neg (by omega)]
    exact ⟨by omega, rfl⟩
  · right
    have e : b % T.spec.signBit = b - T.spec.signBit := by
      rw [Nat.mod_eq_sub_mod hb, Nat.mod_eq_of_lt (by omega)]
    rw [e] at h2
    rw [if_pos hb]
    exact ⟨b - T.spec.signBit, by omega, by omega, rfl⟩

theorem ext_pos (T : FloatTy) {m : Nat} (h : m ≤ T.spec.inf) :
    T.spec.extVal m = if m = T.spec.inf then ((⊤ : WithTop ℚ) : WithBot (WithTop ℚ)) else ((T.spec.val m : WithTop ℚ) : WithBot (WithTop ℚ)) := by
  unfold Format.extVal
  rw [if_pos (by have := spec_inf_lt T; omega)]

theorem ext_neg (T : FloatTy) (m : Nat) :
    T.spec.extVal (m + T.spec.signBit) = if m = T.spec.inf then (⊥ : WithBot (WithTop ℚ)) else (((-(T.spec.val m) : ℚ) : WithTop ℚ) : WithBot (WithTop ℚ)) := by
  unfold Format.extVal
  rw [if_neg (by omega), Nat.add_sub_cancel]

theorem val_pos (T : FloatTy) {m : Nat} (h : 0 < m) : 0 < T.spec.val m := by
  have := sval_lt T h
  rwa [val_zero] at this

theorem ext_lt (T : FloatTy) {a b : Nat} (ha : Ordered T a) (hb : Ordered T b) (h : rank T a < rank T b) : T.spec.extVal a < T.spec.extVal b := by
  rcases ha.cases with ⟨a1, a2⟩ | ⟨m, a1, rfl, a2⟩ <;> rcases hb.cases with ⟨b1, b2⟩ | ⟨k, b1, rfl, b2⟩ <;> rw [a2, b2] at h
  · rw [ext_pos T a1, ext_pos T b1, if_neg (by omega)]
    split
    · exact WithBot.coe_lt_coe.2 (WithTop.coe_lt_top _)
    · exact WithBot.coe_lt_coe.2 (WithTop.coe_lt_coe.2 (sval_lt T (by omega)))
  · omega
  · rw [ext_neg, ext_pos T b1]
    split
    · split <;> exact WithBot.bot_lt_coe _
    · split
      · exact WithBot.coe_lt_coe.2 (WithTop.coe_lt_top _)
      · refine WithBot.coe_lt_coe.2 (WithTop.coe_lt_coe.2 ?_)
        rcases Nat.eq_zero_or_pos m with rfl | hm
        · have := val_pos T (show 0 < b by omega)
          rw [val_zero]; linarith
        · have := val_pos T hm
          have := val_nonneg T b
          linarith
  · rw [ext_neg, ext_neg, if_neg (c := k = _) (by omega)]
    split
    · exact WithBot.bot_lt_coe _
    · refine WithBot.coe_lt_coe.2 (WithTop.coe_lt_coe.2 (neg_lt_neg (sval_lt T (by omega))))

theorem ext_eq (T : FloatTy) {a b : Nat} (ha : Ordered T a) (hb : Ordered T b) (h : rank T a = rank T b) : T.spec.extVal a = T.spec.extVal b := by
  have hz : T.spec.extVal 0 = T.spec.extVal (0 + T.spec.signBit) := by
    have := spec_inf_pos T
    rw [ext_neg, ext_pos T (Nat.zero_le _), if_neg (by omega), if_neg (by omega), val_zero]; norm_num
  rcases ha.cases with ⟨a1, a2⟩ | ⟨m, a1, rfl, a2⟩ <;> rcases hb.cases with ⟨b1, b2⟩ | ⟨k, b1, rfl, b2⟩ <;> rw [a2, b2] at h
  · rw [show a = b by omega]
  · rw [show a = 0 by omega, show k = 0 by omega]; exact hz
  · rw [show b = 0 by omega, show m = 0 by omega]; exact hz.symm
  · rw [show m = k by omega]

/-- The comparison of the hardware is the order of the values. -/
theorem fpGreater_iff (T : FloatTy) {a b : Nat} (ha : Ordered T a) (hb : Ordered T b) : fpGreater T.fmt a b = true ↔ T.spec.extVal b < T.spec.extVal a := by
  have key : fpGreater T.fmt a b = decide (rank T b < rank T a) := by
    have e : ∀ {x : Nat}, Ordered T x → ¬ T.spec.inf < x % T.spec.signBit := fun h h' => h.2 ⟨h', h.1⟩
    have r : ∀ {x : Nat}, Ordered T x → (if T.spec.signBit ≤ x then -((x % T.spec.signBit : Nat) : Int) else ((x % T.spec.signBit : Nat) : Int)) = rank T x := by
      intro x hx
      unfold rank
      split
      · rename_i h
        rw [Nat.mod_eq_sub_mod h, Nat.mod_eq_of_lt (by have := hx.1; omega)]
      · rename_i h
        rw [Nat.mod_eq_of_lt (by omega)]
    unfold fpGreater
    simp only []
    rw [← T.signBit_eq, ← T.fmatch.inf, if_neg (by rw [not_or]; exact ⟨e ha, e hb⟩)]
    exact decide_eq_decide.2 (by rw [r ha, r hb])
  rw [key, decide_eq_true_eq]
  constructor
  · exact ext_lt T hb ha
  · intro h
    by_contra hc
    rcases lt_or_eq_of_le (not_lt.1 hc) with h' | h'
    · exact lt_asymm h (ext_lt T ha hb h')
    · rw [ext_eq T ha hb h'] at h; exact lt_irrefl _ h

theorem ordered_zero (T : FloatTy) : Ordered T 0 := by
  have := spec_inf_lt T
  refine ⟨by omega, fun h => ?_⟩
  unfold IsNaN at h
  simp at h

/-- A line that is read as `b`. -/
def ReadAs (c : Cfg) (ct : CharType) (T : FloatTy) (st : List Nat) (b : Nat) : Prop :=
  Input ct st ∧ ∃ r, fromChars c ct T.fmt st = .ok r ∧ r.ec ≠ .invalidArgument ∧ r.value = some b

theorem dot_point (c : Cfg) : (grammar c {}).PointOK := by
  have : (grammar c {}).point = 46 := rfl
  unfold Rules.PointOK NumSpec.IsDigit
  rw [this]; decide

theorem read_off {c : Cfg} {ct : CharType} (T : FloatTy) {st : List Nat} (hin : Input ct st) {r : ApiFloat} (h : fromChars c ct T.fmt st = .ok r)
    (he : r.ec ≠ .invalidArgument) : r.off ≠ 0 := by
  have := C72_if_result c T {} hin (dot_point c) h
  cases hb : r.toBool with
  | true => have := (this.1 hb).1; omega
  | false =>
    rcases this.2 hb with h | h
    · exact absurd h.1 he
    · omega

theorem loop_max (c : Cfg) (ct : CharType) (T : FloatTy) : ∀ (lines : List (List Nat × Nat)) (answer x : Nat), Ordered T answer →
    (∀ p ∈ lines, ReadAs c ct T p.1 p.2 ∧ Ordered T p.2) →
    ∃ a, findmaxLoop c ct T.fmt (lines.map (·.1)) answer x = .ok (some a) ∧ (a = answer ∨ ∃ p ∈ lines, a = p.2) ∧
      T.spec.extVal answer ≤ T.spec.extVal a ∧ ∀ p ∈ lines, T.spec.extVal p.2 ≤ T.spec.extVal a := by
  intro lines
  induction lines with
  | nil => intro answer x _ _; exact ⟨answer, rfl, Or.inl rfl, le_rfl, by simp⟩
  | cons p lines ih =>
    intro answer x ha hl
    obtain ⟨⟨hin, r, h1, h2, h3⟩, hp⟩ := hl p (by simp)
    have hoff := read_off T hin h1 h2
    obtain ⟨hnew, hge1, hge2, hor⟩ : let y := if fpGreater T.fmt answer p.2 then answer else p.2
        Ordered T y ∧ T.spec.extVal answer ≤ T.spec.extVal y ∧ T.spec.extVal p.2 ≤ T.spec.extVal y ∧ (y = answer ∨ y = p.2) := by
      simp only []
      by_cases hg : fpGreater T.fmt answer p.2 = true
      · rw [if_pos hg]
        exact ⟨ha, le_rfl, ((fpGreater_iff T ha hp).1 hg).le, Or.inl rfl⟩
      · rw [if_neg hg]
        rw [fpGreater_iff T ha hp, not_lt] at hg
        exact ⟨hp, hg, le_rfl, Or.inr rfl⟩
    obtain ⟨a, i1, i2, i3, i4⟩ := ih _ p.2 hnew (fun q hq => hl q (by simp [hq]))
    refine ⟨a, ?_, ?_, hge1.trans i3, ?_⟩
    · show findmaxLoop c ct T.fmt (p.1 :: lines.map (·.1)) answer x = _
      rw [findmaxLoop]
      simp only [bind, Except.bind, h1, h3, Option.getD_some]
      rw [if_neg hoff]
      exact i1
    · rcases i2 with i2 | ⟨q, hq, i2⟩
      · rcases hor with h | h
        · exact Or.inl (i2.trans h)
        · exact Or.inr ⟨p, by simp, i2.trans h⟩
      · exact Or.inr ⟨q, by simp [hq], i2⟩
    · intro q hq
      rcases List.mem_cons.1 hq with rfl | hq
      · exact hge2.trans i3
      · exact i4 q hq

/-- **C92**: the answer is one of the values read, or zero, and none of the values read is greater, provided no line is a NaN. -/
theorem C92_greatest (c : Cfg) (ct : CharType) (T : FloatTy) (lines : List (List Nat × Nat))
    (h : ∀ p ∈ lines, ReadAs c ct T p.1 p.2 ∧ Ordered T p.2) :
    ∃ a, findmax c ct T.fmt (lines.map (·.1)) = .ok (some a) ∧ (a = 0 ∨ ∃ p ∈ lines, a = p.2) ∧
      T.spec.extVal 0 ≤ T.spec.extVal a ∧ ∀ p ∈ lines, T.spec.extVal p.2 ≤ T.spec.extVal a :=
  loop_max c ct T lines 0 0 (ordered_zero T) h

theorem ordered_rounded (T : FloatTy) {neg : Bool} {x : ℚ} {b : Nat} (h : T.spec.RoundsToBits neg x b) : Ordered T b := by
  refine ⟨?_, rounded_not_nan T h⟩
  obtain ⟨m, hm, rfl⟩ := h
  have := (cell_of_rounds T hm).finite
  have := spec_inf_lt T
  split <;> omega

theorem accepts_rounds {c : Cfg} {ct : CharType} (T : FloatTy) (hT : T ≠ .float16) {s : List Nat} {opt : Options} (hin : Input ct s) (hp : (grammar c opt).PointOK)
    {n : Numeral} {rest : List Nat} {r : ApiFloat} (h : AcceptsNumber c ct T s opt n rest r) (hm : Moderate n) :
    ∃ b, r.value = some b ∧ T.spec.RoundsToBits n.neg n.value b := by
  cases T with
  | double => exact C01_double_correctly_rounded c opt hin hp h hm
  | float => exact C02_float_correctly_rounded c opt hin hp h hm
  | bfloat16 => exact C03_bfloat16_correctly_rounded c opt hin hp h hm
  | float16 => exact absurd rfl hT

theorem zero_accepts (T : FloatTy) : AcceptsNumber Cfg.x64 CharType.char T [48] {} ⟨none, [48], none, none⟩ [] ⟨1, .ok, some 0⟩ := by
  refine ⟨by cases T <;> decide +kernel, by decide, scan_longest sample_point (by decide +kernel)⟩

/-- A line with the number written in it. -/
structure NumberLine (c : Cfg) (ct : CharType) (T : FloatTy) (st : List Nat) (n : Numeral) : Prop where
  input : Input ct st
  number : ∃ rest r, AcceptsNumber c ct T st {} n rest r
  moderate : Moderate n

/-- **C92**: if every line starts with a number, the answer is the greatest of the numbers written, or zero if that is greater, correctly rounded: rounding each
line first loses nothing. -/
theorem C92_rounded_maximum (c : Cfg) (ct : CharType) (T : FloatTy) (hT : T ≠ .float16) (lines : List (List Nat × Numeral))
    (h : ∀ p ∈ lines, NumberLine c ct T p.1 p.2) {M : ℚ} (h0 : 0 ≤ M) (hM : ∀ p ∈ lines, signedValue p.2 ≤ M) (hatt : M = 0 ∨ ∃ p ∈ lines, signedValue p.2 = M) :
    ∃ a m, findmax c ct T.fmt (lines.map (·.1)) = .ok (some a) ∧ T.spec.RoundsTo M m ∧ T.spec.extVal a = T.spec.extVal m := by
  have hex : ∀ p : List Nat × Numeral, ∃ b, p ∈ lines → ReadAs c ct T p.1 b ∧ T.spec.RoundsToBits p.2.neg p.2.value b ∧
      ∃ rest r, AcceptsNumber c ct T p.1 {} p.2 rest r ∧ r.value = some b := by
    intro p
    by_cases hp : p ∈ lines
    · obtain ⟨hin, ⟨rest, r, hr⟩, hm⟩ := h p hp
      obtain ⟨b, h1, h2⟩ := accepts_rounds T hT hin (dot_point c) hr hm
      exact ⟨b, fun _ => ⟨⟨hin, r, hr.result, hr.accepted, h1⟩, h2, rest, r, hr, h1⟩⟩
    · exact ⟨0, fun h => absurd h hp⟩
  choose f hf using hex
  obtain ⟨a, g1, g2, g3, g4⟩ := C92_greatest c ct T (lines.map fun p => (p.1, f p)) (by
    intro q hq
    obtain ⟨p, hp, rfl⟩ := List.mem_map.1 hq
    exact ⟨(hf p hp).1, ordered_rounded T (hf p hp).2.1⟩)
  have e : (lines.map fun p => (p.1, f p)).map (·.1) = lines.map (·.1) := by rw [List.map_map]; rfl
  rw [e] at g1
  -- no line is above the rounded maximum, and none above zero if the maximum is zero
  have mono : ∀ p ∈ lines, ∀ q ∈ lines, signedValue p.2 ≤ signedValue q.2 → T.spec.extVal (f p) ≤ T.spec.extVal (f q) := by
    intro p hp q hq hpq
    obtain ⟨rest, r, hr, hv⟩ := (hf p hp).2.2
    obtain ⟨rest', r', hr', hv'⟩ := (hf q hq).2.2
    obtain ⟨b, b', e1, e2, e3⟩ := C10_monotone T (h p hp).input (h q hq).input (dot_point c) (dot_point c) hr hr' (h p hp).moderate (h q hq).moderate hpq
    rw [hv] at e1; rw [hv'] at e2
    rw [Option.some.inj e1, Option.some.inj e2]; exact e3
  have zval : signedValue ⟨none, [48], none, none⟩ = 0 := by
    unfold signedValue Numeral.value; simp [Numeral.digits, digitsVal, Numeral.neg]
  have below : ∀ p ∈ lines, signedValue p.2 ≤ 0 → T.spec.extVal (f p) ≤ T.spec.extVal 0 := by
    intro p hp hle
    obtain ⟨rest, r, hr, hv⟩ := (hf p hp).2.2
    obtain ⟨b, b', e1, e2, e3⟩ := C10_monotone T (h p hp).input (input_of_bytes (by decide) (by decide)) (dot_point c) sample_point hr (zero_accepts T)
      (h p hp).moderate (Or.inl (by decide)) (by rw [zval]; exact hle)
    rw [hv] at e1
    rw [Option.some.inj e1, Option.some.inj e2]; exact e3
  have over : ∀ p ∈ lines, 0 ≤ signedValue p.2 → T.spec.extVal 0 ≤ T.spec.extVal (f p) := by
    intro p hp hle
    obtain ⟨rest, r, hr, hv⟩ := (hf p hp).2.2
    obtain ⟨b, b', e1, e2, e3⟩ := C10_monotone T (input_of_bytes (by decide) (by decide)) (h p hp).input sample_point (dot_point c) (zero_accepts T) hr
      (Or.inl (by decide)) (h p hp).moderate (by rw [zval]; exact hle)
    rw [hv] at e2
    rw [Option.some.inj e1, Option.some.inj e2]; exact e3
  rcases eq_or_lt_of_le h0 with rfl | hpos
  · refine ⟨a, 0, g1, roundsTo_zero T, le_antisymm ?_ g3⟩
    rcases g2 with rfl | ⟨q, hq, rfl⟩
    · exact le_rfl
    · obtain ⟨p, hp, rfl⟩ := List.mem_map.1 hq
      exact below p hp (hM p hp)
  · rcases hatt with rfl | ⟨p, hp, rfl⟩
    · exact absurd hpos (lt_irrefl _)
    · have hneg : p.2.neg = false := by
        by_contra hc
        unfold signedValue at hpos
        rw [if_pos (by simpa using hc)] at hpos
        have := value_nonneg p.2
        linarith
      have hval : signedValue p.2 = p.2.value := by unfold signedValue; rw [hneg]; rfl
      obtain ⟨m, hm, hb⟩ := (hf p hp).2.1
      rw [hneg] at hb
      have hb : f p = m := by simpa using hb
      rw [hval]
      refine ⟨a, m, g1, hm, ?_⟩
      rw [← hb]
      apply le_antisymm
      · rcases g2 with rfl | ⟨q, hq, rfl⟩
        · exact over p hp hpos.le
        · obtain ⟨q', hq', rfl⟩ := List.mem_map.1 hq
          exact mono q' hq' p hp (hM q' hq')
      · exact g4 _ (List.mem_map.2 ⟨p, hp, rfl⟩)

/-- **C92**: the exception is thrown exactly if some line is no number and does not begin with white space that is skipped. -/
theorem C92_throws_any_build (c : Cfg) (ct : CharType) (T : FloatTy) (lines : List (List Nat)) (hin : ∀ st ∈ lines, Input ct st) :
    findmax c ct T.fmt lines = .ok none ↔
      ∃ st ∈ lines, (∃ r, fromChars c ct T.fmt st = .ok r ∧ r.ec = .invalidArgument) ∧ ¬ (c.wsMacro = true ∧ ∃ u v, st = u :: v ∧ ApiSpec.isSpace u = true) := by
  have key : ∀ (lines : List (List Nat)) (answer x : Nat), (∀ st ∈ lines, Input ct st) →
      (findmaxLoop c ct T.fmt lines answer x = .ok none ↔
        ∃ st ∈ lines, (∃ r, fromChars c ct T.fmt st = .ok r ∧ r.ec = .invalidArgument) ∧ ¬ (c.wsMacro = true ∧ ∃ u v, st = u :: v ∧ ApiSpec.isSpace u = true)) := by
    intro lines
    induction lines with
    | nil => intro answer x _; simp [findmaxLoop]
    | cons st lines ih =>
      intro answer x hin
      have hst := hin st (by simp)
      obtain ⟨r, hr, hle⟩ := C24_float_defined c hst.wf T (s := st) { format := Fmt.general } hst.ok hst.len
      have hr : fromChars c ct T.fmt st = .ok r := hr
      have hws : wsFlag (c.eff {}) = c.wsMacro := by
        unfold wsFlag Cfg.eff effective
        cases c.wsMacro <;> cases c.plusMacro <;> decide
      have key : r.off = 0 ↔ r.ec = .invalidArgument ∧ ¬ (c.wsMacro = true ∧ ∃ u v, st = u :: v ∧ ApiSpec.isSpace u = true) := by
        by_cases he : r.ec = .invalidArgument
        · have hb : r.toBool = false := by unfold ApiFloat.toBool; rw [he]; rfl
          have h3 : st.drop r.off = textOf c {} st := by
            rcases (C72_if_result c T {} hst (dot_point c) hr).2 hb with h | h
            · exact h.2.2
            · rw [he] at h; cases h.1
          have h4 := congrArg List.length h3
          rw [List.length_drop] at h4
          unfold textOf body at h4
          rw [hws] at h4
          rw [and_iff_right he]
          constructor
          · rintro h0 ⟨hw, u, v, rfl, hu⟩
            rw [h0, hw, if_pos rfl, List.dropWhile_cons_of_pos hu] at h4
            have := List.IsSuffix.length_le (List.dropWhile_suffix (l := v) ApiSpec.isSpace)
            simp only [List.length_cons] at h4
            omega
          · intro hn
            have : (if c.wsMacro = true then st.dropWhile ApiSpec.isSpace else st) = st := by
              split
              · rename_i hw
                cases st with
                | nil => rfl
                | cons u v => exact List.dropWhile_cons_of_neg (fun hu => hn ⟨hw, u, v, rfl, hu⟩)
              · rfl
            rw [this] at h4
            omega
        · exact ⟨fun h => absurd h (read_off T hst hr he), fun h => absurd h.1 he⟩
      rw [findmaxLoop]
      simp only [bind, Except.bind, hr]
      by_cases hoff : r.off = 0
      · rw [if_pos hoff]
        simp only [pure, Except.pure, true_iff]
        exact ⟨st, by simp, ⟨r, hr, (key.1 hoff).1⟩, (key.1 hoff).2⟩
      · rw [if_neg hoff, ih _ _ (fun s hs => hin s (by simp [hs]))]
        constructor
        · rintro ⟨s, hs, h⟩; exact ⟨s, by simp [hs], h⟩
        · rintro ⟨s, hs, ⟨r', h1, h2⟩, h3⟩
          rcases List.mem_cons.1 hs with rfl | hs
          · rw [hr] at h1; cases h1; exact absurd (key.2 ⟨h2, h3⟩) hoff
          · exact ⟨s, hs, ⟨r', h1, h2⟩, h3⟩
  exact key lines 0 0 hin

/-- **C92**: without the macro that skips white space the exception is thrown exactly if some line is no number. -/
theorem C92_throws {c : Cfg} (hc : c.wsMacro = false) (ct : CharType) (T : FloatTy) (lines : List (List Nat)) (hin : ∀ st ∈ lines, Input ct st) :
    findmax c ct T.fmt lines = .ok none ↔ ∃ st ∈ lines, ∃ r, fromChars c ct T.fmt st = .ok r ∧ r.ec = .invalidArgument := by
  rw [C92_throws_any_build c ct T lines hin, hc]
  simp

theorem loop_read (c : Cfg) (ct : CharType) (T : FloatTy) {st : List Nat} {v : Nat} (h : ReadAs c ct T st v) (lines : List (List Nat)) (answer x : Nat) :
    findmaxLoop c ct T.fmt (st :: lines) answer x = findmaxLoop c ct T.fmt lines (if fpGreater T.fmt answer v then answer else v) v := by
  obtain ⟨hin, r, h1, h2, h3⟩ := h
  rw [findmaxLoop]
  simp only [bind, Except.bind, h1, h3, Option.getD_some]
  rw [if_neg (read_off T hin h1 h2)]

theorem loop_prefix (c : Cfg) (ct : CharType) (T : FloatTy) (rest : List (List Nat)) : ∀ (pre : List (List Nat × Nat)) (answer x : Nat), (∀ p ∈ pre, ReadAs c ct T p.1 p.2) →
    ∃ answer' x', findmaxLoop c ct T.fmt (pre.map (·.1) ++ rest) answer x = findmaxLoop c ct T.fmt rest answer' x' := by
  intro pre
  induction pre with
  | nil => intro answer x _; exact ⟨answer, x, rfl⟩
  | cons p pre ih =>
    intro answer x h
    obtain ⟨a, y, i⟩ := ih (if fpGreater T.fmt answer p.2 then answer else p.2) p.2 (fun q hq => h q (by simp [hq]))
    exact ⟨a, y, by rw [List.map_cons, List.cons_append, loop_read c ct T (h p (by simp)), i]⟩

theorem nan_not_greater (T : FloatTy) {a b : Nat} (h : IsNaN T.spec a ∨ IsNaN T.spec b) : fpGreater T.fmt a b = false := by
  unfold fpGreater
  simp only []
  rw [← T.signBit_eq, ← T.fmatch.inf, if_pos (h.imp And.left And.left)]

/-- **C92**, why NaNs are excluded: whatever comes before a NaN is forgotten, zero included.  The answer is the greatest of the values after it (which may be
negative), and the NaN itself if nothing follows. -/
theorem C92_nan_forgets (c : Cfg) (ct : CharType) (T : FloatTy) (pre post : List (List Nat × Nat)) (line : List Nat × Nat)
    (hpre : ∀ p ∈ pre, ReadAs c ct T p.1 p.2) (hline : ReadAs c ct T line.1 line.2) (hnan : IsNaN T.spec line.2)
    (hpost : ∀ p ∈ post, ReadAs c ct T p.1 p.2 ∧ Ordered T p.2) :
    ∃ a, findmax c ct T.fmt ((pre ++ line :: post).map (·.1)) = .ok (some a) ∧ (post = [] → a = line.2) ∧
      (post ≠ [] → (∃ p ∈ post, a = p.2) ∧ ∀ p ∈ post, T.spec.extVal p.2 ≤ T.spec.extVal a) := by
  rw [List.map_append, List.map_cons]
  obtain ⟨b, y, e⟩ := loop_prefix c ct T (line.1 :: post.map (·.1)) pre 0 0 hpre
  unfold findmax
  rw [e, loop_read c ct T hline, nan_not_greater T (Or.inr hnan), if_neg (by decide)]
  cases post with
  | nil => exact ⟨line.2, rfl, fun _ => rfl, fun h => absurd rfl h⟩
  | cons p post =>
    rw [List.map_cons, loop_read c ct T (hpost p (by simp)).1, nan_not_greater T (Or.inl hnan), if_neg (by decide)]
    obtain ⟨a, i1, i2, i3, i4⟩ := loop_max c ct T post p.2 p.2 (hpost p (by simp)).2 (fun q hq => hpost q (by simp [hq]))
    refine ⟨a, i1, fun h => (List.cons_ne_nil _ _ h).elim, fun _ => ⟨?_, ?_⟩⟩
    · rcases i2 with i2 | ⟨q, hq, i2⟩
      · exact ⟨p, by simp, i2⟩
      · exact ⟨q, by simp [hq], i2⟩
    · intro q hq
      rcases List.mem_cons.1 hq with rfl | hq
      · exact i3
      · exact i4 q hq

/-! ### The hypotheses are met -/

/-- `1e2`, `-9007199254740993.0000000000001x`, `0.10000000000000001`: the greatest is 100. -/
example : ∃ a m, findmax Cfg.x64 CharType.char FloatTy.double.fmt [hundredAText, sampleText, tenth17Text] = .ok (some a) ∧ double.RoundsTo 100 m ∧ double.extVal a = double.extVal m := by
  have e1 : hundredANumeral.value = 100 := by rw [value_of (n := hundredANumeral) (D := 1) (E := 2) (by decide) (by decide)]; norm_num
  have e2 : tenth17Numeral.value = 10000000000000001 / 10 ^ 17 := by
    rw [value_of (n := tenth17Numeral) (D := 10000000000000001) (E := -17) (by decide) (by decide)]; norm_num
  have n0 : 0 ≤ sampleNumeral.value := value_nonneg _
  refine C92_rounded_maximum Cfg.x64 CharType.char .double (by decide) [(hundredAText, hundredANumeral), (sampleText, sampleNumeral), (tenth17Text, tenth17Numeral)] ?_ (M := 100)
    (by norm_num) ?_ (Or.inr ⟨(hundredAText, hundredANumeral), by simp, ?_⟩)
  · simp only [List.forall_mem_cons, List.not_mem_nil, false_implies, implies_true, and_true]
    exact ⟨⟨hundredA_input, ⟨_, _, hundredA_accepts⟩, Or.inl (by decide)⟩, ⟨sample_input, ⟨_, _, sample_accepts⟩, sample_moderate⟩, ⟨tenth17_input, ⟨_, _, tenth17_accepts⟩, Or.inl (by decide)⟩⟩
  · simp only [List.forall_mem_cons, List.not_mem_nil, false_implies, implies_true, and_true]
    refine ⟨?_, ?_, ?_⟩
    · unfold signedValue; rw [e1]; simp [hundredANumeral, Numeral.neg]
    · unfold signedValue; rw [if_pos (by decide)]; linarith
    · unfold signedValue; rw [e2, if_neg (by decide)]; norm_num
  · show signedValue hundredANumeral = 100
    unfold signedValue; rw [e1]; simp [hundredANumeral, Numeral.neg]
example : findmax Cfg.x64 CharType.char binary64 [hundredAText, sampleText, tenth17Text] = .ok (some 4636737291354636288) := by decide +kernel
/-- `7`, `x`: an exception. -/
example : findmax Cfg.x64 CharType.char binary32 [[55], [120]] = .ok none :=
  (C92_throws rfl CharType.char .float [[55], [120]] (by simp only [List.forall_mem_cons]; exact ⟨input_of_bytes (by decide) (by decide), input_of_bytes (by decide) (by decide), by simp⟩)).2
    ⟨[120], by simp, ⟨0, .invalidArgument, none⟩, by decide +kernel, rfl⟩

/-- The lines `5`, `nan`, `-3` give -3. -/
example : ∃ a, findmax Cfg.x64 CharType.char FloatTy.double.fmt [[53], [110, 97, 110], [45, 51]] = .ok (some a) ∧ a = 0xC008000000000000 := by
  have i : ∀ {s : List Nat}, (∀ u ∈ s, u < 256) → s.length < 2 ^ 62 → Input CharType.char s := fun h1 h2 => input_of_bytes h1 h2
  obtain ⟨a, h1, _, h3⟩ := C92_nan_forgets Cfg.x64 CharType.char .double [([53], 0x4014000000000000)] [([45, 51], 0xC008000000000000)] ([110, 97, 110], 0x7ff8000000000000)
    (by simp only [List.forall_mem_cons]; exact ⟨⟨i (by decide) (by decide), ⟨1, .ok, some 0x4014000000000000⟩, by decide +kernel, by decide, rfl⟩, by simp⟩)
    ⟨i (by decide) (by decide), ⟨3, .ok, some 0x7ff8000000000000⟩, by decide +kernel, by decide, rfl⟩ (by unfold IsNaN; decide +kernel)
    (by simp only [List.forall_mem_cons]; exact ⟨⟨⟨i (by decide) (by decide), ⟨2, .ok, some 0xC008000000000000⟩, by decide +kernel, by decide, rfl⟩, ⟨by decide +kernel, by unfold IsNaN; decide +kernel⟩⟩, by simp⟩)
  refine ⟨a, h1, ?_⟩
  obtain ⟨p, hp, e⟩ := (h3 (by simp)).1
  rw [List.mem_singleton] at hp
  rw [e, hp]

/-- With the macro a line ` x` is not noticed. -/
example : findmax { Cfg.x64 with wsMacro := true } CharType.char binary32 [[55], [32, 120]] ≠ .ok none := by
  have h := C92_throws_any_build { Cfg.x64 with wsMacro := true } CharType.char .float [[55], [32, 120]]
    (by simp only [List.forall_mem_cons]; exact ⟨input_of_bytes (by decide) (by decide), input_of_bytes (by decide) (by decide), by simp⟩)
  intro hc
  obtain ⟨st, hs, ⟨r, h1, h2⟩, h3⟩ := h.1 hc
  simp only [List.mem_cons, List.not_mem_nil, or_false] at hs
  rcases hs with rfl | rfl
  · have e : fromChars { Cfg.x64 with wsMacro := true } CharType.char binary32 [55] = .ok ⟨1, .ok, some 0x40e00000⟩ := by decide +kernel
    have h1 : fromChars { Cfg.x64 with wsMacro := true } CharType.char binary32 [55] = .ok r := h1
    rw [e] at h1; cases h1; cases h2
  · exact h3 ⟨rfl, 32, [120], rfl, by decide⟩

end FastFloat
