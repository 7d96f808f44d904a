import Verif.Spec.Whole
import Verif.Props.Operators
/-
# C73: validating a whole string

The idiom `auto r = from_chars(first, last, v); return r && r.ptr == last;`.
-/
set_option autoImplicit false
namespace FastFloat
open NumSpec FloatSpec ApiSpec IntSpec

theorem munch_whole {g : Rules} {t : List Nat} {n : Numeral} : Munch g t n [] ↔ n.WF g ∧ t = n.text g.point := by
  constructor
  · intro h
    exact ⟨h.wf, by have := h.text; rwa [List.append_nil] at this⟩
  · rintro ⟨h1, h2⟩
    refine ⟨h1, (by rw [h2, List.append_nil]), fun u t h => (by cases h), fun _ _ t h => (by cases h), fun _ => ?_, fun _ _ _ u t h => (by cases h)⟩
    rintro ⟨e, q, he, h⟩
    have := congrArg List.length h
    simp only [Exponent.text, List.length_append, List.length_nil] at this
    exact he.1 (List.length_eq_zero_iff.1 (by omega))

theorem inf_whole {plus : Bool} {t : List Nat} {neg : Bool} :
    InfText plus t neg [] ↔ ∃ w, Signed plus t neg w ∧ (w.map lower = wInf ∨ w.map lower = wInf ++ wInity) := by
  constructor
  · rintro ⟨w, r, h1, ⟨v, rfl, hv⟩, h3⟩
    refine ⟨_, h1, ?_⟩
    rcases h3 with ⟨v', rfl, hv'⟩ | ⟨_, rfl⟩
    · right; rw [List.append_nil, List.map_append, hv, hv']
    · left; rwa [List.append_nil]
  · rintro ⟨w, h1, h | h⟩
    · refine ⟨w, [], h1, ⟨w, by rw [List.append_nil], h⟩, Or.inr ⟨?_, rfl⟩⟩
      rintro ⟨q, v, hq, hv⟩
      have : v = [] := (List.append_eq_nil_iff.1 hq.symm).1
      rw [this] at hv; cases hv
    · obtain ⟨a, b, rfl, ha, hb⟩ := List.map_eq_append_iff.1 h
      exact ⟨a ++ b, b, h1, ⟨a, rfl, ha⟩, Or.inl ⟨b, by rw [List.append_nil], hb⟩⟩

theorem nan_whole {plus : Bool} {t : List Nat} {neg : Bool} :
    NanText plus t neg [] ↔ ∃ w, Signed plus t neg w ∧
      (w.map lower = wNan ∨ ∃ v q, v.map lower = wNan ∧ (∀ u ∈ q, NanChar u) ∧ w = v ++ 40 :: (q ++ [41])) := by
  constructor
  · rintro ⟨w, r, h1, ⟨v, rfl, hv⟩, h3⟩
    refine ⟨_, h1, ?_⟩
    rcases h3 with ⟨q, hq, rfl⟩ | ⟨_, rfl⟩
    · exact Or.inr ⟨v, q, hv, hq, rfl⟩
    · left; rwa [List.append_nil]
  · rintro ⟨w, h1, h | ⟨v, q, hv, hq, rfl⟩⟩
    · refine ⟨w, [], h1, ⟨w, by rw [List.append_nil], h⟩, Or.inr ⟨?_, rfl⟩⟩
      rintro ⟨q, p, _, hv⟩
      cases hv
    · exact ⟨_, _, h1, ⟨v, rfl, hv⟩, Or.inl ⟨q, hq, rfl⟩⟩

theorem call_whole {f : Format} {number : Numeral → Code → Nat → Prop} {fmt point : Nat} {t : List Nat} {v : Nat} :
    FloatCall f number fmt point t [] .success (some v) ↔ WholeText f (fun n => number n .success) fmt point t v := by
  constructor
  · intro h
    generalize hd : ([] : List Nat) = d at h
    generalize hco : Code.success = co at h
    generalize hv : some v = w at h
    cases h with
    | number text result =>
      subst hd; subst hco
      cases hv
      have := munch_whole.1 text
      exact .number _ this.1 this.2 result
    | infinity a text =>
      subst hd
      cases hv
      obtain ⟨w, h1, h2⟩ := inf_whole.1 text
      exact .infinity _ w a h1 h2
    | nan a text =>
      subst hd
      cases hv
      obtain ⟨w, h1, h2⟩ := nan_whole.1 text
      exact .nan _ w a h1 h2
    | invalid a b => cases hco
  · intro h
    cases h with
    | number n wf text result => exact .number (munch_whole.2 ⟨wf, text⟩) result
    | infinity neg w a text word => exact .infinity a (inf_whole.2 ⟨w, text, word⟩)
    | nan neg w a text word => exact .nan a (nan_whole.2 ⟨w, text, word⟩)

theorem ieee_inRange {f : Format} : (fun n bits => IeeeNumber f n .success bits) = InRange f := by
  funext n bits
  apply propext
  constructor
  · intro h
    rcases h.error with ⟨e, _⟩ | ⟨_, e⟩
    · cases e
    · exact ⟨e, h.rounded⟩
  · rintro ⟨h1, h2⟩
    exact ⟨h2, Or.inr ⟨rfl, h1⟩⟩

/-- **C73**: the call succeeds, reaches the end of the text and stores `v` if and only if the whole text (after white space to be skipped) is a representation
of a number with the bits `v`: there is no text that is a number and is not accepted as a whole, and no text that is accepted and is not a number. -/
theorem C73_whole_text (c : Cfg) {ct : CharType} (T : FloatTy) (hT : T ≠ .float16) {s : List Nat} (opt : Options) (hin : Input ct s)
    (hp : (grammar c opt).PointOK) (hs : s.length + 400 ≤ 2 ^ 28) (v : Nat) :
    fromCharsFloat c ct T.fmt s opt = .ok ⟨s.length, .ok, some v⟩ ↔
      WholeText T.spec (InRange T.spec) (c.eff opt) opt.decimalPoint (textOf c opt s) v := by
  rw [C50_complete_short c T hT opt hin hp hs, ← ieee_inRange]
  simp only [le_refl, true_and, List.drop_length]
  exact call_whole

/-- **C73** for `float16_t`: the same, with the value and the range that C52 describes. -/
theorem C73_whole_text_float16 (c : Cfg) {ct : CharType} {s : List Nat} (opt : Options) (hin : Input ct s)
    (hp : (grammar c opt).PointOK) (v : Nat) :
    fromCharsFloat c ct binary16 s opt = .ok ⟨s.length, .ok, some v⟩ ↔
      WholeText half (fun n bits => HalfNumber (Runtime c) n.clip .success bits) (c.eff opt) opt.decimalPoint (textOf c opt s) v := by
  rw [C55_total_float16 c opt hin hp]
  simp only [le_refl, true_and, List.drop_length]
  exact call_whole

/-- **C73** for integers, wherever the overflow check is sound: the call succeeds, reaches the end of the text and stores `x` if and only if the whole text is
the number `x`, and `x` is a value of the type. -/
theorem C73_whole_int (c : Cfg) {ct : CharType} {T : IntType} (hT : T.WF) {s : List Nat} (opt : Options) (hin : Input ct s)
    (hx : SoundCheck T opt.base) (x : Int) :
    fromCharsIntApi c ct T s opt = .ok ⟨s.length, .ok, some x⟩ ↔ WholeInt T.bits T.signed (c.eff opt) opt.base (textOf c opt s) x := by
  rw [C51_complete_int_partial c hT opt hin hx]
  simp only [le_refl, true_and, List.drop_length]
  show IntCall _ _ _ _ _ _ .success _ ↔ _
  constructor
  · intro h
    generalize hd : ([] : List Nat) = d at h
    generalize hco : Code.success = co at h
    generalize hv : some x = w at h
    cases h with
    | number hr result =>
      subst hd
      cases result with
      | fits hf =>
        cases hv
        refine ⟨hr.two, hr.max, ⟨_, _, ?_, hr.literal.nonempty, hr.literal.digits, hr.sign, rfl⟩, hf⟩
        have := hr.literal.text
        rwa [List.append_nil] at this
      | overflow _ => cases hv
    | invalid _ => cases hv
  · rintro ⟨h1, h2, ⟨neg, ds, h3, h4, h5, h6, rfl⟩, h7⟩
    refine .number (neg := neg) (ds := ds) ⟨h1, h2, ⟨by rwa [List.append_nil], h5, h4, fun u hu => by cases hu⟩, h6⟩ (.fits h7)

/-! ### Concrete cases -/

/-- `-Inf` is a text for minus infinity, and `12.` is a numeral in the general format ... -/
example : fromCharsFloat Cfg.x64 CharType.char FloatTy.double.fmt [45, 73, 110, 102] {} = .ok ⟨4, .ok, some 0xFFF0000000000000⟩ := by
  refine (C73_whole_text Cfg.x64 .double (by decide) {} (input_of_bytes (by decide) (by decide)) sample_point (by decide) _).2 ?_
  have := WholeText.infinity (f := FloatSpec.double) (number := InRange FloatSpec.double) (fmt := 5) (point := 46) (t := [45, 73, 110, 102]) true [73, 110, 102] (by decide) (Or.inl ⟨rfl, rfl⟩)
    (Or.inl (by decide))
  exact this

/-- ... and `12x` is not accepted as a whole: no bits `v` are a value of it. -/
example : ∀ v, ¬ WholeText FloatTy.double.spec (InRange FloatTy.double.spec) (Cfg.x64.eff {}) 46 (textOf Cfg.x64 {} [49, 50, 120]) v := by
  intro v h
  have := (C73_whole_text Cfg.x64 .double (by decide) {} (ct := CharType.char) (input_of_bytes (by decide) (by decide)) sample_point (by decide) v).2 h
  have h' : fromCharsFloat Cfg.x64 CharType.char FloatTy.double.fmt [49, 50, 120] {} = .ok ⟨2, .ok, some 0x4028000000000000⟩ := by decide +kernel
  rw [h'] at this
  cases this

/-- `nan(1)` as a `float16_t`. -/
example : fromCharsFloat Cfg.x64 CharType.char binary16 [110, 97, 110, 40, 49, 41] {} = .ok ⟨6, .ok, some 0x7E00⟩ := by
  refine (C73_whole_text_float16 Cfg.x64 {} (input_of_bytes (by decide) (by decide)) sample_point _).2 ?_
  have := WholeText.nan (f := half) (number := fun n bits => HalfNumber (Runtime Cfg.x64) n.clip .success bits) (fmt := 5) (point := 46)
    (t := [110, 97, 110, 40, 49, 41]) false [110, 97, 110, 40, 49, 41] (by decide) (Or.inr (Or.inl ⟨rfl, rfl⟩))
    (Or.inr ⟨[110, 97, 110], [49], by decide, by unfold NanChar; decide, rfl⟩)
  exact this

example : fromCharsIntApi Cfg.x64 CharType.char int32 [45, 49, 50] {} = .ok ⟨3, .ok, some (-12)⟩ := by
  refine (C73_whole_int Cfg.x64 (by decide) {} (input_of_bytes (by decide) (by decide)) (Or.inl (by decide)) _).2 ?_
  exact ⟨by decide, by decide, ⟨true, [49, 50], Or.inl ⟨rfl, rfl⟩, by decide, by decide, fun _ => rfl, by decide⟩, by decide⟩

end FastFloat
