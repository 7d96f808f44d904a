import Verif.Props.Total
import Verif.Props.Complete
import Verif.Props.CompleteInt
import Verif.Props.Build
/-
# C62: every code unit, negative wide characters included

`Input` leaves out the negative values of a signed wide character type (`wchar_t` on most systems). Here they are allowed: a call on any sequence of code
units behaves as a call on the same units seen as `char32_t`, after the units that the code takes for blanks have been skipped; the latter include the
negative wide characters whose low byte is a blank.
-/
set_option linter.unusedSimpArgs false
set_option autoImplicit false
namespace FastFloat
open NumSpec FloatSpec ApiSpec

/-- `char32_t` -/
def char32 : CharType := ⟨4, false, false, false⟩

/-- The units that are skipped as blanks: the blanks, and the negative wide characters whose low byte is a blank. -/
def TakenForBlank (ct : CharType) (u : Nat) : Prop := ApiSpec.isSpace u = true ∨ (¬ GoodUnit ct u ∧ ApiSpec.isSpace (u % 256) = true)

/-- The input is a number of units that are skipped, and the text that is parsed. -/
structure Skipped (fmt : Nat) (ct : CharType) (s ws t : List Nat) : Prop where
  split : s = ws ++ t
  blanks : ∀ u ∈ ws, wsFlag fmt = true ∧ TakenForBlank ct u
  stop : ∀ u q, t = u :: q → wsFlag fmt = true → ¬ TakenForBlank ct u

theorem taken_iff {ct : CharType} (hw : ct.WF) {u : Nat} (hu : u < 2 ^ (8 * ct.width)) : TakenForBlank ct u ↔ codeSpace ct u = true := by
  unfold TakenForBlank
  by_cases hg : GoodUnit ct u
  · rw [codeSpace_eq hg]; simp [hg]
  · have h1 : ct.signed = true ∧ ct.width ≠ 1 ∧ 2 ^ (8 * ct.width - 1) ≤ u := by
      unfold GoodUnit at hg
      by_contra hc
      apply hg
      refine ⟨hu, fun hs => ?_⟩
      by_contra h2
      push Not at h2
      exact hc ⟨hs, h2.1, h2.2⟩
    have h256 : 256 ≤ 2 ^ (8 * ct.width - 1) := by
      rcases hw.1 with h | h | h
      · exact absurd h h1.2.1
      · rw [h]; norm_num
      · rw [h]; norm_num
    have hns : ApiSpec.isSpace u = false := by
      unfold ApiSpec.isSpace; simp; omega
    have hneg : ct.toInt u < 256 := by
      unfold CharType.toInt
      have e : 2 ^ (8 * ct.width) = 2 * 2 ^ (8 * ct.width - 1) := by
        rw [← pow_succ']; congr 1
        rcases hw.1 with h | h | h <;> rw [h]
      have : (u : Int) < 2 ^ (8 * ct.width) := by exact_mod_cast hu
      rw [if_pos ⟨h1.1, h1.2.2⟩]
      omega
    unfold codeSpace
    simp [hg, hns, hneg]

theorem skipped_body {ct : CharType} (hw : ct.WF) {fmt : Nat} {s ws t : List Nat} (hu : ∀ u ∈ s, u < 2 ^ (8 * ct.width)) (h : Skipped fmt ct s ws t) :
    codeBody ct fmt s = t := by
  unfold codeBody
  obtain ⟨rfl, h2, h3⟩ := h
  cases hf : wsFlag fmt with
  | false =>
    cases ws with
    | nil => rfl
    | cons a l => have := (h2 a (by simp)).1; rw [hf] at this; cases this
  | true =>
    simp only [if_true]
    have : ∀ u ∈ ws, codeSpace ct u = true := fun u hm => (taken_iff hw (hu u (List.mem_append_left _ hm))).1 (h2 u hm).2
    rw [List.dropWhile_append_of_pos this]
    cases t with
    | nil => rfl
    | cons a l =>
      rw [List.dropWhile_cons_of_neg]
      intro hc
      exact h3 a l rfl hf ((taken_iff hw (hu a (by simp))).2 hc)

/-- Every input is split that way. -/
theorem skipped_exists {ct : CharType} (hw : ct.WF) (fmt : Nat) {s : List Nat} (hu : ∀ u ∈ s, u < 2 ^ (8 * ct.width)) : ∃ ws t, Skipped fmt ct s ws t := by
  cases hf : wsFlag fmt with
  | false => exact ⟨[], s, rfl, by simp, fun u q _ h => by rw [hf] at h; cases h⟩
  | true =>
    refine ⟨s.takeWhile (codeSpace ct), s.dropWhile (codeSpace ct), (List.takeWhile_append_dropWhile).symm, fun u hm => ⟨hf, ?_⟩, fun u q hq _ hc => ?_⟩
    · exact (taken_iff hw (hu u ((List.takeWhile_prefix _).subset hm))).2 (List.mem_takeWhile_imp hm)
    · have hmem : u ∈ s := (List.dropWhile_suffix _).subset (by rw [hq]; simp)
      have h1 := (taken_iff hw (hu u hmem)).1 hc
      have := List.head?_dropWhile_not (codeSpace ct) s
      rw [hq] at this
      simp at this
      rw [this] at h1; cases h1

theorem skipped_rest {ct : CharType} {fmt : Nat} {s ws t : List Nat} (h : Skipped fmt ct s ws t) :
    codeBody char32 fmt t = t := by
  have h3 := h.stop
  unfold codeBody
  cases hf : wsFlag fmt with
  | false => rfl
  | true =>
    simp only [if_true]
    cases t with
    | nil => rfl
    | cons a l =>
      rw [List.dropWhile_cons_of_neg]
      intro hc
      apply h3 a l rfl hf
      left
      have h4 : a < 256 := by
        unfold codeSpace char32 CharType.toInt at hc
        simp at hc
        omega
      unfold codeSpace at hc
      rw [Nat.mod_eq_of_lt h4] at hc
      simp only [Bool.and_eq_true] at hc
      exact hc.2

theorem char32_wf : char32.WF := by decide

theorem units32 {ct : CharType} (hw : ct.WF) {s ws t : List Nat} {fmt : Nat} (hu : ∀ u ∈ s, u < 2 ^ (8 * ct.width)) (h : Skipped fmt ct s ws t) :
    ∀ u ∈ t, u < 2 ^ (8 * char32.width) := by
  intro u hm
  have := hu u (by rw [h.split]; exact List.mem_append_right _ hm)
  refine lt_of_lt_of_le this ?_
  rcases hw.1 with e | e | e <;> rw [e] <;> decide

theorem input32 {ct : CharType} (hw : ct.WF) {s ws t : List Nat} {fmt : Nat} (hu : ∀ u ∈ s, u < 2 ^ (8 * ct.width)) (hl : s.length < 2 ^ 62) (h : Skipped fmt ct s ws t) :
    Input char32 t :=
  ⟨char32_wf, fun u hm => ⟨units32 hw hu h u hm, fun h => by cases h⟩, by have := congrArg List.length h.split; rw [List.length_append] at this; omega⟩

/-- The result of a call on the part of the input after the skipped units, as a result for the whole input. -/
def ApiFloat.shift (k : Nat) (r : ApiFloat) : ApiFloat := ⟨k + r.off, r.ec, r.value⟩
def ApiInt.shift (k : Nat) (r : ApiInt) : ApiInt := ⟨k + r.off, r.ec, r.value⟩

/-- **C62**: the floating-point overloads on any code units of any character type (but the 48 values of `wchar_t` for which the digit test overflows):
the skipped units are passed over, and the rest is read as `char32_t` text. -/
theorem C62_any_units (c : Cfg) {ct : CharType} (hw : ct.WF) (T : FloatTy) {s ws t : List Nat} (opt : Options) (hu : ∀ u ∈ s, UnitOK ct u)
    (hl : s.length < 2 ^ 62) (hdp : ¬ IsDigit opt.decimalPoint) (h : Skipped (c.eff opt) ct s ws t) :
    fromCharsFloat c ct T.fmt s opt = (fromCharsFloat c char32 T.fmt t opt).map (ApiFloat.shift ws.length) := by
  have hu' : ∀ u ∈ s, u < 2 ^ (8 * ct.width) := fun u hm => (hu u hm).1
  have hin := input32 hw hu' hl h
  obtain ⟨rest, ec, v, ho⟩ := outcome_exists c hw T (c.eff opt) opt.decimalPoint t
  have h1 := Outcome.callc (s := s) hw hu hl hdp (by rw [skipped_body hw hu' h]; exact ho)
  have ho' := ho.transport (fun _ hd => numOut_indep ⟨rfl, rfl, rfl⟩ hw char32_wf T hd)
  have h2 := Outcome.callc (s := t) char32_wf hin.ok hin.len hdp (by rw [skipped_rest h]; exact ho')
  rw [h1, h2]
  have := ho.rest_le
  show _ = Except.ok _
  unfold ApiFloat.shift
  have hlen : s.length - rest.length = ws.length + (t.length - rest.length) := by rw [h.split, List.length_append]; omega
  rw [hlen]

/-- **C62** for the integer overloads: any code units, without exception. -/
theorem C62_int_any_units (c : Cfg) {ct : CharType} (hw : ct.WF) {T : IntType} (hT : T.WF) {s ws t : List Nat} (opt : Options)
    (hu : ∀ u ∈ s, u < 2 ^ (8 * ct.width)) (h : Skipped (c.eff opt) ct s ws t) :
    fromCharsIntApi c ct T s opt = (fromCharsIntApi c char32 T t opt).map (ApiInt.shift ws.length) := by
  have hb := skipped_body hw hu h
  have hb' := skipped_rest h
  have hlen : ∀ rest : List Nat, rest.length ≤ t.length → s.length - rest.length = ws.length + (t.length - rest.length) := by
    intro rest hr; rw [h.split, List.length_append]; omega
  rcases literal_or_not c ct T s opt with ⟨neg, ds, rest, h1, h2, h3, h4⟩ | hbad
  · have hbase : opt.base = (opt.base.toNat : Int) := by omega
    have h3' := h3
    rw [hb, ← hb'] at h3'
    have hrest : rest.length ≤ t.length := by
      rw [hb] at h3
      rcases h3.text with ⟨_, e⟩ | ⟨_, e⟩ | ⟨_, _, e⟩ <;> rw [e] <;> simp <;> omega
    have a := intCall_literal c hw hT hu hbase (by omega) (by omega) h3 h4
    have b := intCall_literal c char32_wf hT (units32 hw hu h) hbase (by omega) (by omega) h3' h4
    by_cases hov : Overflow T opt.base.toNat neg (core opt.base.toNat (ds ++ rest)).length (IntSpec.value opt.base.toNat ds % 2 ^ 64)
    · rw [a.1 hov, b.1 hov, hlen _ hrest]; rfl
    · rw [a.2 hov, b.2 hov, hlen _ hrest]; rfl
  · rw [intCall_bad c hw hT hu opt hbad, intCall_bad c char32_wf hT (units32 hw hu h) opt (by rw [hb']; rw [hb] at hbad; exact hbad), hb, hb', hlen t le_rfl]
    rfl

theorem any_units_lift (c : Cfg) {ct : CharType} (hw : ct.WF) (T : FloatTy) {s ws t : List Nat} (opt : Options) (hu : ∀ u ∈ s, UnitOK ct u)
    (hl : s.length < 2 ^ 62) (hp : (grammar c opt).PointOK) (h : Skipped (c.eff opt) ct s ws t) {P : List Nat → Code → Option Nat → Prop}
    (key : Input char32 t → textOf c opt t = t → ∀ r, fromCharsFloat c char32 T.fmt t opt = .ok r ↔ r.off ≤ t.length ∧ P (t.drop r.off) r.ec.code r.value) (r : ApiFloat) :
    fromCharsFloat c ct T.fmt s opt = .ok r ↔ ws.length ≤ r.off ∧ r.off ≤ s.length ∧ P (s.drop r.off) r.ec.code r.value := by
  have hu' : ∀ u ∈ s, u < 2 ^ (8 * ct.width) := fun u hm => (hu u hm).1
  have hin := input32 hw hu' hl h
  have hlen : s.length = ws.length + t.length := by rw [h.split, List.length_append]
  have ht : textOf c opt t = t := by rw [← hin.body_eq]; exact skipped_rest h
  rw [C62_any_units c hw T opt hu hl hp.1 h]
  have key := key hin ht
  have hdrop : ∀ k, s.drop (ws.length + k) = t.drop k := by
    intro k; rw [h.split, List.drop_append]; simp
  constructor
  · intro hr
    cases hx : fromCharsFloat c char32 T.fmt t opt with
    | error e => rw [hx] at hr; cases hr
    | ok r' =>
      rw [hx] at hr
      cases hr
      obtain ⟨a, b⟩ := (key r').1 hx
      refine ⟨Nat.le_add_right _ _, by show ws.length + r'.off ≤ _; omega, ?_⟩
      show P (s.drop (ws.length + r'.off)) _ _
      rw [hdrop]; exact b
  · rintro ⟨a, b, d⟩
    obtain ⟨k, hk⟩ : ∃ k, r.off = ws.length + k := ⟨r.off - ws.length, by omega⟩
    rw [hk, hdrop] at d
    rw [(key ⟨k, r.ec, r.value⟩).2 ⟨by show k ≤ _; omega, d⟩]
    show Except.ok _ = _
    unfold ApiFloat.shift
    rw [← hk]

/-- **C62**, complete: for any code units, the call returns `r` exactly if the specification of C50 says so of the text after the skipped units. -/
theorem C62_complete (c : Cfg) {ct : CharType} (hw : ct.WF) (T : FloatTy) (hT : T ≠ .float16) {s ws t : List Nat} (opt : Options) (hu : ∀ u ∈ s, UnitOK ct u)
    (hl : s.length + 400 ≤ 2 ^ 28) (hp : (grammar c opt).PointOK) (h : Skipped (c.eff opt) ct s ws t) (r : ApiFloat) :
    fromCharsFloat c ct T.fmt s opt = .ok r ↔
      ws.length ≤ r.off ∧ r.off ≤ s.length ∧ FloatCall T.spec (IeeeNumber T.spec) (c.eff opt) opt.decimalPoint t (s.drop r.off) r.ec.code r.value := by
  refine any_units_lift c hw T opt hu (by norm_num at hl ⊢; omega) hp h (fun hin ht r => ?_) r
  have hlen : s.length = ws.length + t.length := by rw [h.split, List.length_append]
  have key := C50_complete_short c T hT opt hin hp (show t.length + 400 ≤ 2 ^ 28 by omega) r
  rw [ht] at key
  exact key

/-- **C62**, complete for `float16_t`, and for texts of any length. -/
theorem C62_complete_float16 (c : Cfg) {ct : CharType} (hw : ct.WF) {s ws t : List Nat} (opt : Options) (hu : ∀ u ∈ s, UnitOK ct u)
    (hl : s.length < 2 ^ 62) (hp : (grammar c opt).PointOK) (h : Skipped (c.eff opt) ct s ws t) (r : ApiFloat) :
    fromCharsFloat c ct binary16 s opt = .ok r ↔
      ws.length ≤ r.off ∧ r.off ≤ s.length ∧
        FloatCall half (fun n => HalfNumber (Runtime c) n.clip) (c.eff opt) opt.decimalPoint t (s.drop r.off) r.ec.code r.value := by
  refine any_units_lift c hw .float16 opt hu hl hp h (fun hin ht r => ?_) r
  have key := C55_total_float16 c opt hin hp r
  rw [ht] at key
  exact key

/-- A `wchar_t` text: -224 (whose low byte is a space), a space, `1.5`, and -100. -/
def wideText : List Nat := [2 ^ 32 - 224, 32, 49, 46, 53, 2 ^ 32 - 100]

theorem wide_skipped : Skipped (Cfg.x64.eff { format := 5 + 256 }) ⟨4, true, false, false⟩ wideText [2 ^ 32 - 224, 32] [49, 46, 53, 2 ^ 32 - 100] := by
  refine ⟨rfl, ?_, ?_⟩
  · intro u hu
    refine ⟨by decide, ?_⟩
    rcases List.mem_cons.1 hu with rfl | hu
    · right; unfold GoodUnit; decide
    · rcases List.mem_cons.1 hu with rfl | hu
      · left; decide
      · cases hu
  · intro u q h _
    cases h
    unfold TakenForBlank GoodUnit
    decide

/-- The first character is skipped although it is not a blank. -/
example : fromCharsFloat Cfg.x64 ⟨4, true, false, false⟩ binary64 wideText { format := 5 + 256 } = .ok ⟨5, .ok, some 0x3ff8000000000000⟩ := by
  show fromCharsFloat Cfg.x64 ⟨4, true, false, false⟩ FloatTy.double.fmt wideText { format := 5 + 256 } = _
  rw [C62_any_units Cfg.x64 (by decide) .double { format := 5 + 256 } (by unfold UnitOK; decide) (by decide) (by decide) wide_skipped]
  decide +kernel
example : fromCharsIntApi Cfg.x64 ⟨4, true, false, false⟩ int64 wideText { format := 5 + 256 } = .ok ⟨3, .ok, some 1⟩ := by
  rw [C62_int_any_units Cfg.x64 (by decide) (by decide) { format := 5 + 256 } (by decide) wide_skipped]
  decide +kernel
example : FloatCall double (IeeeNumber double) (5 + 256) 46 [49, 46, 53, 2 ^ 32 - 100] [2 ^ 32 - 100] .success (some 0x3ff8000000000000) :=
  ((C62_complete Cfg.x64 (ct := ⟨4, true, false, false⟩) (by decide) .double (by decide) { format := 5 + 256 } (by unfold UnitOK; decide) (by decide) sample_point
    wide_skipped ⟨5, .ok, some 0x3ff8000000000000⟩).1 (by decide +kernel)).2.2
example : FloatCall half (fun n => HalfNumber (Runtime Cfg.x64) n.clip) (5 + 256) 46 [49, 46, 53, 2 ^ 32 - 100] [2 ^ 32 - 100] .success (some 0x3e00) :=
  ((C62_complete_float16 Cfg.x64 (ct := ⟨4, true, false, false⟩) (by decide) { format := 5 + 256 } (by unfold UnitOK; decide) (by decide) sample_point
    wide_skipped ⟨5, .ok, some 0x3e00⟩).1 (by decide +kernel)).2.2
/-- The split of C62 always exists. -/
example : ∃ ws t, Skipped 256 ⟨4, true, false, false⟩ wideText ws t := skipped_exists (by decide) 256 (by decide)

end FastFloat
