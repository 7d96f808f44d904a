import Verif.Model.Clients
import Verif.Props.Whole
import Verif.Props.EveryPoint
/-
# C84: reading one field with blanks around it

The client of tests/rcppfastfloat_test.cpp: white space may surround the number, and nothing else may.
-/
set_option autoImplicit false
namespace FastFloat
open NumSpec FloatSpec ApiSpec Client

theorem leftoverBlank_eq {ct : CharType} : ∀ {s : List Nat}, (∀ u ∈ s, GoodUnit ct u) → leftoverBlank ct s = .ok (decide (∀ u ∈ s, ApiSpec.isSpace u = true)) := by
  intro s
  induction s with
  | nil => intro _; simp [leftoverBlank]
  | cons x xs ih =>
    intro h
    have e : isSpace ct x = .ok (ApiSpec.isSpace x) := by rw [isSpace_eq, codeSpace_eq (h x (by simp))]
    rw [leftoverBlank]
    simp only [bind, Except.bind, e]
    cases hx : ApiSpec.isSpace x with
    | false => simp [pure, Except.pure, hx]
    | true =>
      have := ih (fun u hu => h u (by simp [hu]))
      simp only [Bool.not_true, Bool.false_eq_true, if_false]
      rw [this]
      simp [hx]

theorem sign_not_space : ApiSpec.isSpace 45 = false ∧ ApiSpec.isSpace 43 = false := by decide

theorem letter_not_space {u : Nat} (h : 97 ≤ lower u) : ApiSpec.isSpace u = false := by
  unfold ApiSpec.isSpace
  unfold lower at h
  split at h <;> (simp; omega)

theorem word_head {v : List Nat} {a : Nat} {l : List Nat} (h : v.map lower = a :: l) (ha : 97 ≤ a) (q : List Nat) :
    ∃ u r, v ++ q = u :: r ∧ ApiSpec.isSpace u = false := by
  cases v with
  | nil => simp at h
  | cons u r =>
    simp only [List.map_cons, List.cons.injEq] at h
    exact ⟨u, r ++ q, rfl, letter_not_space (by omega)⟩

theorem signed_head {plus neg : Bool} {t w : List Nat} (h : Signed plus t neg w) (hw : ∃ u r, w = u :: r ∧ ApiSpec.isSpace u = false) :
    ∃ u r, t = u :: r ∧ ApiSpec.isSpace u = false := by
  rcases h with ⟨_, h⟩ | ⟨_, h⟩ | ⟨_, _, h⟩
  · exact ⟨45, w, h, sign_not_space.1⟩
  · rw [h]; exact hw
  · exact ⟨43, w, h, sign_not_space.2⟩

theorem numeral_head {g : Rules} {n : Numeral} (h : n.WF g) (hp : ApiSpec.isSpace g.point = false) :
    ∃ u r, n.text g.point = u :: r ∧ ApiSpec.isSpace u = false := by
  have hdig : ∀ u, NumSpec.IsDigit u → ApiSpec.isSpace u = false := by
    intro u hu
    unfold NumSpec.IsDigit at hu
    unfold ApiSpec.isSpace
    simp; omega
  unfold Numeral.text
  rcases h.1 with hs | hs | ⟨hs, _⟩
  · rw [hs]
    cases hi : n.int with
    | cons d ds => exact ⟨d, _, rfl, hdig d (h.2.1 d (by simp [Numeral.digits, hi]))⟩
    | nil =>
      cases hf : n.frac with
      | some ds => exact ⟨g.point, _, rfl, hp⟩
      | none =>
        have := h.2.2.1
        split at this
        · exact absurd hi this.1
        · simp [Numeral.digits, hi, hf] at this
  · rw [hs]; exact ⟨45, _, rfl, sign_not_space.1⟩
  · rw [hs]; exact ⟨43, _, rfl, sign_not_space.2⟩

theorem whole_head {f : Format} {number : Numeral → Nat → Prop} {fmt point : Nat} {t : List Nat} {v : Nat} (h : WholeText f number fmt point t v)
    (hp : ApiSpec.isSpace point = false) : ∃ u r, t = u :: r ∧ ApiSpec.isSpace u = false := by
  cases h with
  | number n wf text _ => rw [text]; exact numeral_head (g := rules fmt point) wf hp
  | infinity neg w _ text word =>
    refine signed_head text ?_
    have := fun l (h : w.map lower = 105 :: l) => word_head h (by omega) []
    rw [List.append_nil] at this
    rcases word with h | h
    · exact this _ h
    · exact this _ h
  | nan neg w _ text word =>
    refine signed_head text ?_
    rcases word with h | ⟨v, q, h, _, rfl⟩
    · have := word_head h (by omega) []
      rwa [List.append_nil] at this
    · exact word_head h (by omega) _

theorem textOf_blanks {c : Cfg} {opt : Options} (hf : wsFlag (c.eff opt) = true) {ws t : List Nat} (hw : ∀ u ∈ ws, ApiSpec.isSpace u = true)
    (ht : ∃ u r, t = u :: r ∧ ApiSpec.isSpace u = false) : textOf c opt (ws ++ t) = t := by
  obtain ⟨u, r, rfl, hu⟩ := ht
  unfold textOf body
  rw [if_pos hf, List.dropWhile_append_of_pos hw, List.dropWhile_cons_of_neg (by rw [hu]; simp)]

theorem space_neutral {u : Nat} (h : ApiSpec.isSpace u = true) : Neutral u := by
  unfold ApiSpec.isSpace at h
  unfold Neutral NanChar
  simp at h
  omega

theorem call_bounds (c : Cfg) {ct : CharType} (T : FloatTy) {s : List Nat} (opt : Options) (hin : Input ct s) {r : ApiFloat}
    (h : fromCharsFloat c ct T.fmt s opt = .ok r) : r.off ≤ s.length := by
  by_cases hT : T = .float16
  · subst hT
    exact ((C74_every_option_float16 c opt hin r).1 h).1
  · exact ((C74_every_option c T hT opt hin r).1 h).1

/-- What the client computes from the result of the call. -/
theorem rcppField_eq {c : Cfg} {ct : CharType} {f : BinFmt} {s : List Nat} {opt : Options} (hin : Input ct s) {r : ApiFloat}
    (h : fromCharsFloat c ct f s opt = .ok r) (hv : r.ec = .ok → ∃ b, r.value = some b) (v : Nat) :
    (rcppField c ct f s opt = .ok (some v) ↔ r.ec = .ok ∧ r.value = some v ∧ ∀ u ∈ s.drop r.off, ApiSpec.isSpace u = true) ∧
    ∃ o, rcppField c ct f s opt = .ok o := by
  obtain ⟨off, ec, val⟩ := r
  unfold rcppField
  simp only [bind, Except.bind, h]
  by_cases he : ec = .ok
  · obtain ⟨b, hb⟩ := hv he
    simp only at hb
    subst he; subst hb
    have hl := leftoverBlank_eq (ct := ct) (s := s.drop off) (fun u hu => hin.units u (List.mem_of_mem_drop hu))
    simp only [ne_eq, not_true_eq_false, if_false]
    by_cases ho : off = s.length
    · simp [ho, pure, Except.pure]
    · rw [if_pos ho]
      simp only [hl]
      by_cases ha : ∀ u ∈ s.drop off, ApiSpec.isSpace u = true
      · rw [decide_eq_true ha]
        simpa [pure, Except.pure] using fun _ => ha
      · rw [decide_eq_false ha]
        simpa [pure, Except.pure] using fun _ => not_forall.1 ha
  · simp [he, pure, Except.pure]

theorem rcpp_of (c : Cfg) {ct : CharType} (T : FloatTy) {s : List Nat} {opt : Options} (hin : Input ct s) (hpt : ApiSpec.isSpace opt.decimalPoint = false)
    (hf : wsFlag (c.eff opt) = true) {number : Numeral → Nat → Prop}
    (hw : ∀ {p : List Nat}, Input ct p → p.length ≤ s.length → ∀ v, fromCharsFloat c ct T.fmt p opt = .ok ⟨p.length, .ok, some v⟩ ↔
      WholeText T.spec number (c.eff opt) opt.decimalPoint (textOf c opt p) v) (v : Nat) :
    (rcppField c ct T.fmt s opt = .ok (some v) ↔
      ∃ before t after, s = before ++ (t ++ after) ∧ (∀ u ∈ before, ApiSpec.isSpace u = true) ∧ (∀ u ∈ after, ApiSpec.isSpace u = true) ∧
        WholeText T.spec number (c.eff opt) opt.decimalPoint t v) ∧
    ∃ o, rcppField c ct T.fmt s opt = .ok o := by
  obtain ⟨r, _, hr, _⟩ := C37_any_point (c := c) (c' := c) ⟨rfl, rfl⟩ T opt hin
  have hv : r.ec = .ok → ∃ b, r.value = some b := fun h => (C14_any_point c T opt hin hr).2 (by rw [h]; simp)
  obtain ⟨key, tot⟩ := rcppField_eq hin hr hv v
  refine ⟨?_, tot⟩
  rw [key]
  constructor
  · rintro ⟨h1, h2, h3⟩
    have h4 := C56_any_point c T opt hin hr (by rw [h1]; simp)
    have hoff : r.off ≤ s.length := call_bounds c T opt hin hr
    have hl : (s.take r.off).length = r.off := by rw [List.length_take]; omega
    have e : r = ⟨(s.take r.off).length, .ok, some v⟩ := by rw [hl, ← h1, ← h2]
    have h5 := (hw (input_take hin r.off) (by omega) v).1 (h4.trans (congrArg _ e))
    obtain ⟨ws, w1, w2, _⟩ := textOf_suffix c opt (s.take r.off)
    refine ⟨ws, _, s.drop r.off, ?_, w2, h3, h5⟩
    rw [← List.append_assoc, ← w1, List.take_append_drop]
  · rintro ⟨before, t, after, rfl, hb, ha, ht⟩
    have hh := whole_head ht hpt
    have ht' := textOf_blanks hf hb hh
    have hin' : Input ct (before ++ t) := ⟨hin.wf, fun u hu => hin.units u (by simp at hu ⊢; tauto), by
      have := hin.len; simp only [List.length_append] at this ⊢; omega⟩
    have h1 := (hw hin' (by simp) v).2 (by rw [ht']; exact ht)
    have h2 : fromCharsFloat c ct T.fmt (before ++ (t ++ after)) opt = .ok ⟨(before ++ t).length, .ok, some v⟩ := by
      cases after with
      | nil => rw [List.append_nil]; exact h1
      | cons d u =>
        have hd := ha d (by simp)
        rw [← List.append_assoc] at hin ⊢
        rw [C23_any_point c T opt hin (space_neutral hd) (by rintro rfl; rw [hd] at hpt; cases hpt)
          (Or.inr (by rw [ht']; obtain ⟨u, r, rfl, _⟩ := hh; simp))]
        exact h1
    rw [h2] at hr
    simp only [Except.ok.injEq] at hr
    subst hr
    refine ⟨rfl, rfl, ?_⟩
    rw [← List.append_assoc, List.drop_left]
    exact ha

/-- **C84**: the client reads the value `v` if and only if the text is a number with the bits `v` with white space before and after it, and nothing else.
(`wsFlag`: the options ask for white space to be skipped, as those of the test do.) -/
theorem C84_trimmed (c : Cfg) {ct : CharType} (T : FloatTy) (hT : T ≠ .float16) {s : List Nat} {opt : Options} (hin : Input ct s)
    (hp : (grammar c opt).PointOK) (hpt : ApiSpec.isSpace opt.decimalPoint = false) (hf : wsFlag (c.eff opt) = true) (hs : s.length + 400 ≤ 2 ^ 28) (v : Nat) :
    rcppField c ct T.fmt s opt = .ok (some v) ↔
      ∃ before t after, s = before ++ (t ++ after) ∧ (∀ u ∈ before, ApiSpec.isSpace u = true) ∧ (∀ u ∈ after, ApiSpec.isSpace u = true) ∧
        WholeText T.spec (InRange T.spec) (c.eff opt) opt.decimalPoint t v :=
  (rcpp_of c T hin hpt hf (fun hi hl v => C73_whole_text c T hT opt hi hp (by omega) v) v).1

/-- **C84** for `float16_t`, with the value and the range that C52 describes. -/
theorem C84_trimmed_float16 (c : Cfg) {ct : CharType} {s : List Nat} {opt : Options} (hin : Input ct s)
    (hp : (grammar c opt).PointOK) (hpt : ApiSpec.isSpace opt.decimalPoint = false) (hf : wsFlag (c.eff opt) = true) (v : Nat) :
    rcppField c ct binary16 s opt = .ok (some v) ↔
      ∃ before t after, s = before ++ (t ++ after) ∧ (∀ u ∈ before, ApiSpec.isSpace u = true) ∧ (∀ u ∈ after, ApiSpec.isSpace u = true) ∧
        WholeText half (fun n bits => HalfNumber (Runtime c) n.clip .success bits) (c.eff opt) opt.decimalPoint t v :=
  (rcpp_of c .float16 hin hpt hf (fun hi _ v => C73_whole_text_float16 c opt hi hp v) v).1

/-- **C84**: every other text is rejected, without a fault. -/
theorem C84_rejects (c : Cfg) {ct : CharType} (T : FloatTy) (hT : T ≠ .float16) {s : List Nat} {opt : Options} (hin : Input ct s)
    (hp : (grammar c opt).PointOK) (hpt : ApiSpec.isSpace opt.decimalPoint = false) (hf : wsFlag (c.eff opt) = true) (hs : s.length + 400 ≤ 2 ^ 28)
    (h : ¬ ∃ before t after v, s = before ++ (t ++ after) ∧ (∀ u ∈ before, ApiSpec.isSpace u = true) ∧ (∀ u ∈ after, ApiSpec.isSpace u = true) ∧
        WholeText T.spec (InRange T.spec) (c.eff opt) opt.decimalPoint t v) :
    rcppField c ct T.fmt s opt = .ok none := by
  obtain ⟨_, o, ho⟩ := rcpp_of c T hin hpt hf (fun hi hl v => C73_whole_text c T hT opt hi hp (by omega) v) 0
  cases o with
  | none => exact ho
  | some v =>
    obtain ⟨b, t, a, h1⟩ := (C84_trimmed c T hT hin hp hpt hf hs v).1 ho
    exact absurd ⟨b, t, a, v, h1⟩ h

/-! ### Concrete cases -/

theorem rcpp_ws (c : Cfg) : wsFlag (c.eff rcppOptions) = true := by
  unfold Cfg.eff effective
  cases c.plusMacro <;> cases c.wsMacro <;> decide

/-- The flags in force for the test, in every build: scientific, fixed, allow_leading_plus, skip_white_space and no others. -/
theorem rcpp_flags (c : Cfg) : c.eff rcppOptions = 2 ^ 0 + 2 ^ 2 + 2 ^ 7 + 2 ^ 8 := by
  unfold Cfg.eff effective
  cases c.plusMacro <;> cases c.wsMacro <;> decide

/-- **C84** for the very call of the test: the field is a number of the general format (fixed or scientific) with the point '.', an optional plus or minus sign, or an
infinity or NaN. -/
theorem C84_rcpp (c : Cfg) {ct : CharType} (T : FloatTy) (hT : T ≠ .float16) {s : List Nat} (hin : Input ct s) (hs : s.length + 400 ≤ 2 ^ 28) (v : Nat) :
    rcppField c ct T.fmt s = .ok (some v) ↔
      ∃ before t after, s = before ++ (t ++ after) ∧ (∀ u ∈ before, ApiSpec.isSpace u = true) ∧ (∀ u ∈ after, ApiSpec.isSpace u = true) ∧
        WholeText T.spec (InRange T.spec) (2 ^ 0 + 2 ^ 2 + 2 ^ 7 + 2 ^ 8) 46 t v := by
  have := C84_trimmed c T hT (opt := rcppOptions) hin (by
    show ¬ (48 ≤ 46 ∧ 46 ≤ 57) ∧ (46 : Nat) ≠ 43 ∧ (46 : Nat) ≠ 45 ∧ (46 : Nat) ≠ 101 ∧ (46 : Nat) ≠ 69 ∧ (46 : Nat) ≠ 100 ∧ (46 : Nat) ≠ 68; decide) (by decide) (rcpp_ws c) hs v
  rw [rcpp_flags] at this
  exact this

/-- " \t1.5 \n" -/
def sampleField : List Nat := [32, 9, 49, 46, 53, 32, 10]

example : rcppField Cfg.x64 CharType.char FloatTy.double.fmt sampleField = .ok (some 0x3FF8000000000000) := by decide +kernel
/-- The text meets the hypotheses of `C84_trimmed`. -/
example : ∃ before t after, sampleField = before ++ (t ++ after) ∧ (∀ u ∈ before, ApiSpec.isSpace u = true) ∧ (∀ u ∈ after, ApiSpec.isSpace u = true) ∧
    WholeText FloatTy.double.spec (InRange FloatTy.double.spec) (Cfg.x64.eff rcppOptions) 46 t 0x3FF8000000000000 :=
  (C84_trimmed Cfg.x64 .double (by decide) (input_of_bytes (by decide) (by decide)) (by unfold Rules.PointOK NumSpec.IsDigit; decide) (by decide) (rcpp_ws _)
    (by decide) _).1 (by decide +kernel)
/-- "+2.2" -/
example : rcppField Cfg.x64 CharType.char FloatTy.double.fmt [43, 50, 46, 50] = .ok (some 0x400199999999999A) := by decide +kernel
/-- "  1970-01-01", "1d+4", "-+0", "" -/
example : rcppField Cfg.x64 CharType.char FloatTy.double.fmt [32, 32, 49, 57, 55, 48, 45, 48, 49, 45, 48, 49] = .ok none := by decide +kernel
example : rcppField Cfg.x64 CharType.char FloatTy.double.fmt [49, 100, 43, 52] = .ok none := by decide +kernel
example : rcppField Cfg.x64 CharType.char FloatTy.double.fmt [45, 43, 48] = .ok none := by decide +kernel
example : rcppField Cfg.x64 CharType.char FloatTy.double.fmt [] = .ok none := by decide +kernel

end FastFloat
