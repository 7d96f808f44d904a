import Verif.Props.CostCounts
import Verif.Props.Words
/-
# C75, C76: nothing is read for free

Every code unit that a call consumes has been looked at by a counted loop, but for the four units (sign, decimal point, exponent letter, exponent sign) that no
loop looks at: the length of what is consumed is at most the number of steps plus four.  So the counter of the linear bounds (C75, C76) is not an empty one.
-/
set_option autoImplicit false
namespace FastFloat
open Timed

/-- The way from `p` to `q` is paid for by `n` steps, up to `k` units. -/
def Paid (k : Nat) (p q : List Nat) (n : Nat) : Prop := p.length ≤ q.length + n + k

theorem Walks.paid {p q : List Nat} {n : Nat} (h : Walks p q n) : Paid 0 p q n := by
  obtain ⟨h1, h2⟩ := h
  unfold looked at h2
  unfold Paid
  split at h2 <;> omega

theorem Blocks.paid {k : Nat} {p q : List Nat} {n : Nat} (hk : 8 ≤ k) (h : Blocks k p q n) : Paid 0 p q n := by
  obtain ⟨b, h1, h2⟩ := h
  have : 8 * b ≤ k * b := Nat.mul_le_mul_right b hk
  unfold Paid
  split at h2 <;> omega

theorem Paid.trans {k k' : Nat} {p q r : List Nat} {n m : Nat} (h : Paid k p q n) (h' : Paid k' q r m) : Paid (k + k') p r (n + m) := by
  unfold Paid at *; omega

theorem Paid.refl (p : List Nat) (k n : Nat) : Paid k p p n := by unfold Paid; omega

theorem clangFour_paid {c : Cfg} {ct : CharType} {p : List Nat} {i : Nat} {r : List Nat × Nat} (h : clangFour c ct p i = .ok r) :
    p.length ≤ r.1.length + 4 := by
  unfold clangFour at h
  split at h
  · obtain ⟨v, -, h⟩ := bind_split h
    split at h
    · obtain ⟨q, hq, h⟩ := bind_split h
      have := skipN_okT hq
      have e : r.1 = q := by cases h; rfl
      rw [e]; omega
    · have e : r.1 = p := by cases h; rfl
      rw [e]; omega
  · have e : r.1 = p := by cases h; rfl
    rw [e]; omega

theorem loopEightT_paid (c : Cfg) (ct : CharType) (p : List Nat) (i : Nat) :
    Counts (loopParseIfEightDigitsT c ct p i) (fun r n => Paid 0 p r.1 n) := by
  unfold loopParseIfEightDigitsT
  refine Counts.ite (fun _ => ?_) (fun _ => Counts.ite (fun _ => ?_) (fun _ => Counts.pure (Paid.refl _ _ _)))
  · refine Counts.bind ((charEightLoopT_steps c ct _ p i).mono fun r n h => Blocks.paid (by omega) h) fun r n h => ?_
    refine Counts.tick ?_
    refine Counts.run fun q hq => ?_
    have := clangFour_paid hq
    unfold Paid at *; omega
  · exact (simdEightLoopT_steps c _ p i).mono fun r n h => Blocks.paid (le_refl _) h

/-- Where a part of the scanner stops. -/
def Scan.stop {α : Type} (f : α → List Nat) : Scan α → List Nat
  | .fail r => r.lastmatch
  | .go a => f a

theorem intStepT_paid (ct : CharType) (json : Bool) (p : List Nat) :
    Counts (intStepT ct json p) (fun r n => Paid 0 p (r.stop fun a => a.2) n) := by
  unfold intStepT
  refine Counts.bind ((intDigitsT_steps ct p).mono fun r n h => h.paid) fun r n h => ?_
  obtain ⟨q, i⟩ := r
  have hq : Paid 0 p q (n + 0) := h
  refine Counts.ite (fun _ => Counts.ite (fun _ => Counts.pure hq) fun _ => ?_) (fun _ => Counts.pure hq)
  exact Counts.runBind fun c0 _ => Counts.ite (fun _ => Counts.pure (Paid.refl _ _ _)) (fun _ => Counts.pure hq)

theorem fracStepT_paid (c : Cfg) (ct : CharType) (dp i : Nat) (p : List Nat) : Counts (fracStepT c ct dp i p) (fun r n => Paid 1 p r.p n) := by
  unfold fracStepT
  refine Counts.ite (fun _ => ?_) (fun _ => Counts.pure (Paid.refl _ _ _))
  refine Counts.runBind fun q hq => ?_
  have hq := advance_ok hq
  refine Counts.bind (loopEightT_paid c ct q i) fun r n h => ?_
  refine Counts.bind ((digitLoopT_steps ct r.1 r.2).mono fun _ _ h => h.paid) fun s m h' => Counts.pure ?_
  show Paid 1 p s.1 _
  unfold Paid at *; omega

theorem skipMarker_paid {p q : List Nat} (h : skipMarker p = .ok q) : p.length ≤ q.length + 1 := by
  unfold skipMarker at h
  split at h
  · have := advance_ok h; omega
  · cases h; omega

theorem expSign_paid (p : List Nat) : p.length ≤ (expSign p).2.length + 1 := by
  unfold expSign
  split
  · simp
  · split
    · simp
    · split <;> simp

theorem expStepT_paid (ct : CharType) (fmt : Fmt) (p : List Nat) : Counts (expStepT ct fmt p) (fun r n => Paid 2 p (r.stop fun a => a.2) n) := by
  unfold expStepT
  refine Counts.ite (fun _ => ?_) (fun _ => Counts.ite (fun _ => Counts.pure (Paid.refl _ _ _)) (fun _ => Counts.pure (Paid.refl _ _ _)))
  refine Counts.runBind fun q hq => ?_
  have hq := skipMarker_paid hq
  have hs := expSign_paid q
  obtain ⟨T, hT⟩ : ∃ T, expSign q = T := ⟨_, rfl⟩
  rw [hT] at hs ⊢
  obtain ⟨neg, p2⟩ := T
  replace hs : q.length ≤ p2.length + 1 := hs
  refine Counts.runBind fun isInt _ => ?_
  refine Counts.ite (fun _ => Counts.ite (fun _ => Counts.pure ?_) (fun _ => Counts.pure (Paid.refl _ _ _))) (fun _ => ?_)
  · show Paid 2 p p2 0
    unfold Paid; omega
  · refine Counts.bind ((expDigitLoopT_steps ct p2 0).mono fun _ _ h => h.paid) fun r n h => ?_
    obtain ⟨p3, e⟩ := r
    replace h : Paid 0 p2 p3 n := h
    refine Counts.pure ?_
    show Paid 2 p p3 (n + 0)
    unfold Paid at *; omega

theorem signStep_paid {ct : CharType} {json : Bool} {fmt : Fmt} {dp : Nat} {p : List Nat} {r : Scan (Bool × List Nat)}
    (h : signStep ct json fmt dp p = .ok r) : Paid 1 p (r.stop fun a => a.2) 0 := by
  unfold signStep at h
  obtain ⟨c0, -, h⟩ := bind_split h
  split at h
  · obtain ⟨q, hq, h⟩ := bind_split h
    have hl := advance_ok hq
    have hp : Paid 1 p q 0 := by unfold Paid; omega
    cases q with
    | nil => cases h; exact hp
    | cons ch q' =>
      obtain ⟨isInt, -, h⟩ := bind_split h
      split at h
      · split at h
        · cases h; exact hp
        · cases h; exact hp
      · split at h
        · cases h; exact hp
        · cases h; exact hp
  · cases h; exact Paid.refl _ _ _

theorem parseNumberStringT_paid (c : Cfg) (ct : CharType) (json : Bool) (p : List Nat) (opt : Options) (ss : Bool) :
    Counts (parseNumberStringT c ct json p opt ss) (fun r n => Paid 4 p r.lastmatch n) := by
  unfold parseNumberStringT
  refine Counts.runBind fun r hr => ?_
  have hr := signStep_paid hr
  cases r with
  | fail r =>
    refine Counts.pure ?_
    have hr : Paid 1 p r.lastmatch 0 := hr
    unfold Paid at *; omega
  | go a =>
    obtain ⟨negative, start⟩ := a
    replace hr : Paid 1 p start 0 := hr
    refine Counts.bind (intStepT_paid ct json start) fun r n1 h1 => ?_
    cases r with
    | fail r =>
      refine Counts.pure ?_
      have h1 : Paid 0 start r.lastmatch n1 := h1
      unfold Paid at *; omega
    | go a =>
      obtain ⟨i, endInt⟩ := a
      replace h1 : Paid 0 start endInt n1 := h1
      refine Counts.bind (fracStepT_paid c ct _ i endInt) fun fr n2 h2 => ?_
      refine Counts.runBind fun dc _ => ?_
      have hf : Paid 4 p fr.p (n1 + (n2 + 0)) := by unfold Paid at *; omega
      refine Counts.ite (fun _ => Counts.pure hf) (fun _ => Counts.ite (fun _ => Counts.pure hf) (fun _ => ?_))
      refine Counts.bind (expStepT_paid ct _ fr.p) fun r n3 h3 => ?_
      cases r with
      | fail r =>
        refine Counts.pure ?_
        have h3 : Paid 2 fr.p r.lastmatch n3 := h3
        unfold Paid at *; omega
      | go a =>
        obtain ⟨expNumber, last⟩ := a
        replace h3 : Paid 2 fr.p last n3 := h3
        refine Counts.runBind fun ex _ => ?_
        refine Counts.bind (Q := fun _ _ => True) (fun _ _ => trivial) fun zeros n4 _ => ?_
        refine Counts.bind (Q := fun _ _ => True) (fun _ _ => trivial) fun em n5 _ => Counts.pure ?_
        show Paid 4 p last _
        unfold Paid at *; omega

theorem nanSeqT_paid (ct : CharType) (p : List Nat) : Counts (nanSeqT ct p) (fun r n => ∀ q, r = some q → p.length ≤ q.length + n) := by
  induction p with
  | nil => exact Counts.pure fun q h => by cases h
  | cons ch p ih =>
    refine Counts.tick (Counts.ite (fun _ => Counts.pure fun q h => ?_) fun _ => Counts.ite (fun _ => ih.mono fun r n h q hq => ?_) fun _ => Counts.pure fun q h => ?_)
    · cases h; simp only [List.length_cons]; omega
    · have := h q hq; simp only [List.length_cons]; omega
    · cases h

theorem nanEndT_paid (ct : CharType) (p : List Nat) : Counts (nanEndT ct p) (fun q n => Paid 1 p q n) := by
  unfold nanEndT
  refine Counts.ite (fun _ => Counts.bind (nanSeqT_paid ct (p.drop 1)) fun r n h => Counts.pure ?_) fun _ => Counts.pure (Paid.refl _ _ _)
  cases r with
  | none => exact Paid.refl _ _ _
  | some q =>
    have := h q rfl
    rw [List.length_drop] at this
    show Paid 1 p q (n + 0)
    unfold Paid; omega

theorem infnanSign_paid {first q : List Nat} {c0 : Nat} {fmt : Fmt} (h : infnanSign first c0 fmt = .ok q) : first.length ≤ q.length + 1 := by
  unfold infnanSign at h
  split at h
  · have := advance_ok h; omega
  · cases h; omega

theorem infinityEnd_paid {c : Cfg} {ct : CharType} {p q : List Nat} (h : infinityEnd c ct p = .ok q) : p.length ≤ q.length + 8 := by
  unfold infinityEnd at h
  split at h
  · obtain ⟨q', -, h⟩ := bind_split h
    obtain ⟨b, -, h⟩ := bind_split h
    split at h
    · have := skipN_okT h; omega
    · have := skipN_okT h; omega
  · have := skipN_okT h; omega

theorem parseInfnanT_paid (c : Cfg) (ct : CharType) (F : BinFmt) (first : List Nat) (fmt : Fmt) :
    Counts (parseInfnanT c ct F first fmt) (fun r n => Paid 2 first r.ptr n) := by
  unfold parseInfnanT
  refine Counts.runBind fun c0 _ => Counts.runBind fun p hp => ?_
  have hp := infnanSign_paid hp
  refine Counts.ite (fun _ => Counts.tick ?_) fun _ => Counts.pure (Paid.refl _ _ _)
  refine Counts.runBind fun isNan _ => Counts.ite (fun _ => ?_) fun _ => Counts.tick ?_
  · refine Counts.runBind fun q hq => ?_
    have hq := skipN_okT hq
    refine Counts.bind (nanEndT_paid ct q) fun e n h => Counts.pure ?_
    show Paid 2 first e _
    unfold Paid at *; omega
  · refine Counts.runBind fun isInf _ => Counts.ite (fun _ => ?_) fun _ => Counts.pure (Paid.refl _ _ _)
    refine Counts.bind (Q := fun q n => Paid 3 p q n) ?_ fun e n h => Counts.pure ?_
    · refine Counts.tick (Counts.run fun q hq => ?_)
      have := infinityEnd_paid hq
      unfold Paid; omega
    · show Paid 2 first e _
      unfold Paid at *; omega

theorem fromCharsAdvancedPnsT_ptr (c : Cfg) (ct : CharType) (F : BinFmt) (pns : ParsedNumber) :
    Counts (fromCharsAdvancedPnsT c ct F pns) (fun r _ => r.ptr = pns.lastmatch) := by
  have any : ∀ {α : Type} {t : Timed α} {f : α → Timed FloatResult}, (∀ a, Counts (f a) (fun r _ => r.ptr = pns.lastmatch)) →
      Counts (t >>= f) (fun r _ => r.ptr = pns.lastmatch) := fun h => Counts.bind (Q := fun _ _ => True) (fun _ _ => trivial) fun a _ _ => h a
  unfold fromCharsAdvancedPnsT
  refine Counts.ite (fun _ => any fun fast => ?_) (fun _ => any fun fast => ?_)
  all_goals
    cases fast with
    | some v => exact Counts.pure rfl
    | none =>
      refine any fun am => ?_
      refine Counts.ite (fun _ => any fun am1 => Counts.ite (fun _ => any fun am2 => ?_) (fun _ => any fun am2 => ?_)) (fun _ => any fun am2 => ?_)
      all_goals exact Counts.ite (fun _ => any fun _ => Counts.pure rfl) (fun _ => any fun _ => Counts.pure rfl)

theorem parseNumberSlowPathT_paid (c : Cfg) (ct : CharType) (F : BinFmt) (first : List Nat) (opt : Options) (bjf : Bool) :
    Counts (parseNumberSlowPathT c ct F first opt bjf) (fun r n => Paid 4 first r.ptr n) := by
  unfold parseNumberSlowPathT
  refine Counts.bind (parseNumberStringT_paid c ct bjf first opt true) fun pns n h => ?_
  refine (fromCharsAdvancedPnsT_ptr c ct F pns).mono fun r m hr => ?_
  rw [hr]; unfold Paid at *; omega

theorem fromCharsFloatParsedT_paid (c : Cfg) (ct : CharType) (F : BinFmt) (first : List Nat) (opt : Options) (fmt : Fmt) (bjf : Bool)
    (pns : ParsedNumber) (n0 : Nat) (h0 : Paid 4 first pns.lastmatch n0) :
    Counts (fromCharsFloatParsedT c ct F first opt fmt bjf pns) (fun r n => Paid 4 first r.ptr (n0 + n)) := by
  have hs : Counts (parseNumberSlowPathT c ct F first opt bjf) (fun r n => Paid 4 first r.ptr (n0 + n)) :=
    (parseNumberSlowPathT_paid c ct F first opt bjf).mono fun r n h => by unfold Paid at *; omega
  unfold fromCharsFloatParsedT
  refine Counts.ite (fun _ => Counts.ite (fun _ => Counts.pure (Paid.refl _ _ _)) fun _ => (parseInfnanT_paid c ct F first fmt).mono fun r n h => ?_) fun _ => ?_
  · unfold Paid at *; omega
  · refine Counts.ite (fun _ => hs) fun _ => Counts.runBind fun fast _ => ?_
    cases fast with
    | some v => exact Counts.pure h0
    | none => exact Counts.runBind fun am _ => Counts.ite (fun _ => hs) fun _ => Counts.pure h0

theorem fromCharsFloatBodyT_paid (c : Cfg) (ct : CharType) (F : BinFmt) (first : List Nat) (opt : Options) :
    Counts (fromCharsFloatBodyT c ct F first opt) (fun r n => Paid 4 first r.ptr n) := by
  cases first with
  | nil => exact Counts.pure (Paid.refl _ _ _)
  | cons a first =>
    unfold fromCharsFloatBodyT
    exact Counts.bind (parseNumberStringT_paid c ct _ (a :: first) opt false) fun pns n h =>
      fromCharsFloatParsedT_paid c ct F (a :: first) opt _ _ pns n h

theorem dropSpacesT_paid (c : Cfg) (ct : CharType) (s : List Nat) (opt : Options) : Counts (dropSpacesT c ct s opt) (fun q n => Paid 0 s q n) := by
  unfold dropSpacesT
  exact Counts.ite (fun _ => (skipSpacesT_steps ct s).mono fun _ _ h => h.paid) fun _ => Counts.pure (Paid.refl _ _ _)

/-- **C75**: every code unit that a floating-point call consumes is paid for by a step, but for at most four. -/
theorem C75_every_unit_is_paid (c : Cfg) (ct : CharType) (T : FloatTy) (s : List Nat) (opt : Options) (r : ApiFloat)
    (h : (fromCharsFloatT c ct T.fmt s opt).out = .ok r) : r.off ≤ (fromCharsFloatT c ct T.fmt s opt).steps + 4 := by
  have H : Counts (fromCharsFloatT c ct T.fmt s opt) (fun r n => r.off ≤ n + 4) := by
    unfold fromCharsFloatT
    refine Counts.bind (Q := fun (r : FloatResult) n => Paid 4 s r.ptr n) ?_ fun r n h => Counts.pure ?_
    · unfold fromCharsFloatAdvancedT
      refine Counts.bind (dropSpacesT_paid c ct s opt) fun q n h => ?_
      exact (fromCharsFloatBodyT_paid c ct T.fmt q opt).mono fun r m h' => by unfold Paid at *; omega
    · show s.length - r.ptr.length ≤ _
      unfold Paid at *; omega
  exact H r h

/-! ### Integers -/

theorem countr_le (c : Cfg) {x : Nat} (hx : x < 2 ^ 32) : countrZero32 c x ≤ 32 := by
  obtain ⟨h0, h1⟩ := C69_countr_zero c hx
  rcases Nat.eq_zero_or_pos x with h | h
  · exact (h0 h).le
  · by_contra hc
    have hd := Nat.le_of_dvd h (h1 h).1
    have : 2 ^ 32 ≤ 2 ^ countrZero32 c x := Nat.pow_le_pow_right (by norm_num) (by omega)
    omega

theorem parseU8T_paid (c : Cfg) (ct : CharType) (first p : List Nat) (z : Bool) :
    Counts (parseU8T c ct first p z) (fun r n => r.ptr = first ∨ Paid 0 p r.ptr n) := by
  have hn : ∀ n, (if z = true then ({ ptr := p, ec := .ok, value := some 0 } : IntResult) else { ptr := first, ec := .invalidArgument, value := none }).ptr = first ∨
      Paid 0 p (if z = true then ({ ptr := p, ec := .ok, value := some 0 } : IntResult) else { ptr := first, ec := .invalidArgument, value := none }).ptr n := by
    intro n
    cases z
    · exact Or.inl rfl
    · exact Or.inr (Paid.refl _ _ _)
  unfold parseU8T
  refine Counts.ite (fun _ => Counts.pure (hn _)) fun _ => Counts.tick (Counts.runBind fun digits _ => ?_)
  obtain ⟨M, hM⟩ : ∃ M, ((digits + 0x46464646) % 2 ^ 32 ||| (digits + 2 ^ 32 - 0x30303030) % 2 ^ 32) &&& 0x80808080 = M := ⟨_, rfl⟩
  have hlt : M < 2 ^ 32 := by
    rw [← hM]
    exact lt_of_le_of_lt Nat.and_le_right (by norm_num)
  have htz := countr_le c hlt
  rw [hM]
  obtain ⟨tz, hz⟩ : ∃ tz, countrZero32 c M = tz := ⟨_, rfl⟩
  rw [hz] at htz
  obtain ⟨nd, hnd⟩ : ∃ nd, (if (if tz = 32 then 4 else tz / 2 ^ 3) < p.length then (if tz = 32 then 4 else tz / 2 ^ 3) else p.length) = nd := ⟨_, rfl⟩
  have h4 : nd ≤ 4 := by
    have h1 : (if tz = 32 then 4 else tz / 2 ^ 3) ≤ 4 := by split <;> omega
    obtain ⟨t, ht⟩ : ∃ t, (if tz = 32 then 4 else tz / 2 ^ 3) = t := ⟨_, rfl⟩
    rw [ht] at h1 hnd
    rw [← hnd]
    split <;> omega
  simp only [hz, hnd]
  refine Counts.ite (fun _ => Counts.pure (hn _)) fun _ => Counts.ite (fun _ => ?_) fun _ => ?_
  · refine Counts.runBind fun q hq => ?_
    have hq := skipN_okT hq
    refine Counts.bind ((u8RestT_steps ct q).mono fun _ _ h => h.paid) fun e n h => Counts.pure (Or.inr ?_)
    show Paid 0 p e _
    unfold Paid at *; omega
  · refine Counts.runBind fun d _ => Counts.runBind fun q hq => ?_
    have hq := skipN_okT hq
    have hp : Paid 0 p q (4 + 0) := by unfold Paid; omega
    exact Counts.ite (fun _ => Counts.pure (Or.inr hp)) fun _ => Counts.pure (Or.inr hp)

theorem parseU16T_paid (c : Cfg) (ct : CharType) (first p : List Nat) (z : Bool) :
    Counts (parseU16T c ct first p z) (fun o n => ∀ r, o = some r → r.ptr = first ∨ Paid 0 p r.ptr n) := by
  unfold parseU16T
  refine Counts.ite (fun _ => Counts.pure fun r h => ?_) fun _ => Counts.ite (fun _ => ?_) fun _ => Counts.pure fun r h => ?_
  · cases h
    cases z
    · exact Or.inl rfl
    · exact Or.inr (Paid.refl _ _ _)
  · refine Counts.tick (Counts.runBind fun digits _ => Counts.ite (fun _ => ?_) fun _ => Counts.pure fun r h => ?_)
    · refine Counts.runBind fun d5 _ => Counts.ite (fun _ => ?_) fun _ => ?_
      · refine Counts.runBind fun d6 _ => Counts.runBind fun q hq => ?_
        have hq := skipN_okT hq
        have hp : Paid 0 p q (6 + 0) := by unfold Paid; omega
        refine Counts.ite (fun _ => ?_) fun _ => Counts.ite (fun _ => Counts.pure fun r h => ?_) fun _ => Counts.pure fun r h => ?_
        · refine Counts.bind ((skipDigitsT_steps ct q).mono fun _ _ h => h.paid) fun e n h => Counts.pure fun r hr => ?_
          cases hr
          right
          show Paid 0 p e _
          unfold Paid at *; omega
        · cases h; exact Or.inr hp
        · cases h; exact Or.inr hp
      · refine Counts.runBind fun q hq => Counts.pure fun r h => ?_
        have hq := skipN_okT hq
        cases h
        right
        show Paid 0 p q _
        unfold Paid; omega
    · cases h
  · cases h

theorem parseIntFinish_ptr {T : IntType} {base : Int} {first p : List Nat} {neg z : Bool} {r2 : List Nat × Nat} {r : IntResult}
    (h : parseIntFinish T base first p neg z r2 = .ok r) : r.ptr = first ∨ r.ptr = r2.1 := by
  unfold parseIntFinish at h
  dsimp only at h
  split at h
  · split at h
    · cases h; exact Or.inr rfl
    · cases h; exact Or.inl rfl
  · obtain ⟨m, -, h⟩ := bind_split h
    split at h
    · cases h; exact Or.inr rfl
    · obtain ⟨m', -, h⟩ := bind_split h
      split at h
      · cases h; exact Or.inr rfl
      · obtain ⟨b, hb⟩ : ∃ b, (!T.isU64 && decide (r2.2 > (T.max % 2 ^ 64 + (if neg = true then 1 else 0)) % 2 ^ 64)) = b := ⟨_, rfl⟩
        rw [hb] at h
        split at h
        · cases h; exact Or.inr rfl
        · split at h
          · obtain ⟨v, -, h⟩ := bind_split h
            cases h; exact Or.inr rfl
          · cases h; exact Or.inr rfl

theorem parseIntGenericT_paid (c : Cfg) (ct : CharType) (T : IntType) (base : Int) (first p : List Nat) (neg z : Bool) :
    Counts (parseIntGenericT c ct T base first p neg z) (fun r n => r.ptr = first ∨ Paid 0 p r.ptr n) := by
  unfold parseIntGenericT
  refine Counts.bind (Q := fun (r : List Nat × Nat) n => Paid 0 p r.1 n) ?_ fun r1 n1 h1 => ?_
  · unfold intBlocksT
    exact Counts.ite (fun _ => loopEightT_paid c ct p 0) fun _ => Counts.pure (Paid.refl _ _ _)
  · refine Counts.bind ((baseLoopT_steps base r1.1 r1.2).mono fun _ _ h => h.paid) fun r2 n2 h2 => Counts.run fun r hr => ?_
    rcases parseIntFinish_ptr hr with h | h
    · exact Or.inl h
    · right; rw [h]; unfold Paid at *; omega

theorem parseIntDigitsT_paid (c : Cfg) (ct : CharType) (T : IntType) (base : Int) (first p : List Nat) (neg z : Bool) :
    Counts (parseIntDigitsT c ct T base first p neg z) (fun r n => r.ptr = first ∨ Paid 0 p r.ptr n) := by
  unfold parseIntDigitsT
  refine Counts.ite (fun _ => parseU8T_paid c ct first p z) fun _ => Counts.ite (fun _ => ?_) fun _ => parseIntGenericT_paid c ct T base first p neg z
  refine Counts.bind (parseU16T_paid c ct first p z) fun o n h => ?_
  cases o with
  | some r =>
    refine Counts.pure ?_
    exact h r rfl
  | none =>
    refine (parseIntGenericT_paid c ct T base first p neg z).mono fun r m h' => ?_
    rcases h' with h' | h'
    · exact Or.inl h'
    · right; unfold Paid at *; omega

theorem skipIntSign_paid {fmt : Fmt} {c0 : Nat} {first q : List Nat} (h : skipIntSign fmt c0 first = .ok q) : first.length ≤ q.length + 1 := by
  unfold skipIntSign at h
  split at h
  · have := advance_ok h; omega
  · cases h; omega

theorem parseIntStringT_paid (c : Cfg) (ct : CharType) (T : IntType) (first : List Nat) (opt : Options) :
    Counts (parseIntStringT c ct T first opt) (fun r n => Paid 1 first r.ptr n) := by
  unfold parseIntStringT
  refine Counts.runBind fun c0 _ => Counts.ite (fun _ => Counts.pure (Paid.refl _ _ _)) fun _ => ?_
  refine Counts.runBind fun q hq => ?_
  have hq := skipIntSign_paid hq
  refine Counts.bind ((skipZeroUnitsT_steps q).mono fun _ _ h => h.paid) fun p n h => ?_
  refine (parseIntDigitsT_paid c ct T opt.base first p _ _).mono fun r m h' => ?_
  rcases h' with h' | h'
  · rw [h']; exact Paid.refl _ _ _
  · unfold Paid at *; omega

/-- **C76**: every code unit that an integer call consumes is paid for by a step, but for the sign. -/
theorem C76_every_unit_is_paid (c : Cfg) (ct : CharType) (T : IntType) (s : List Nat) (opt : Options) (r : ApiInt)
    (h : (fromCharsIntApiT c ct T s opt).out = .ok r) : r.off ≤ (fromCharsIntApiT c ct T s opt).steps + 1 := by
  have H : Counts (fromCharsIntApiT c ct T s opt) (fun r n => r.off ≤ n + 1) := by
    unfold fromCharsIntApiT
    refine Counts.bind (Q := fun (r : IntResult) n => Paid 1 s r.ptr n) ?_ fun r n h => Counts.pure ?_
    · unfold fromCharsIntAdvancedT
      refine Counts.bind (dropSpacesT_paid c ct s opt) fun q n h => ?_
      refine Counts.ite (fun _ => Counts.pure ?_) fun _ => (parseIntStringT_paid c ct T q opt).mono fun r m h' => ?_
      · show Paid 1 s q _
        unfold Paid at *; omega
      · unfold Paid at *; omega
    · show s.length - r.ptr.length ≤ _
      unfold Paid at *; omega
  exact H r h

/-! Concrete cases: `-12.5e+3x` consumes eight units in eight steps (five digits, the end of the digit runs); `-00789 ` as an integer. -/
example : (fromCharsFloatT Cfg.x64 CharType.char binary64 [45, 49, 50, 46, 53, 101, 43, 51, 120] {}).out.toOption.map (·.off) = some 8 ∧
    4 ≤ (fromCharsFloatT Cfg.x64 CharType.char binary64 [45, 49, 50, 46, 53, 101, 43, 51, 120] {}).steps := by decide +kernel

example : (fromCharsIntApiT Cfg.x64 CharType.char int32 [45, 48, 48, 55, 56, 57, 32] {}).out.toOption.map (·.off) = some 6 ∧
    5 ≤ (fromCharsIntApiT Cfg.x64 CharType.char int32 [45, 48, 48, 55, 56, 57, 32] {}).steps := by decide +kernel

end FastFloat
