import Verif.Props.Complete
import Verif.Props.Build
/-
# C05, C35 for float16: exactly which overflows go unreported, and exactly when two builds differ
-/
set_option linter.unusedSimpArgs false
namespace FastFloat
open NumSpec FloatSpec ApiSpec

theorem munch_unique {g : Rules} (hp : g.PointOK) {s : List Nat} {n n' : Numeral} {rest rest' : List Nat} (h : Munch g s n rest)
    (h' : Munch g s n' rest') : n = n' ∧ rest = rest' := by
  have := (munch_scan hp h).symm.trans (munch_scan hp h')
  cases this
  exact ⟨rfl, rfl⟩

/-- **C05 for float16, sharp**: an overflow is reported, unless the call happens at run time in the default rounding mode and the digits of the
significand, read as one integer, give at most `2^11` and are scaled by at most `10^4`; in those cases, and only in those, it is not. -/
theorem C05_float16_sharp (c : Cfg) {ct : CharType} {s : List Nat} (opt : Options) (hin : Input ct s)
    (hp : (grammar c opt).PointOK) {n : Numeral} {rest : List Nat} {r : ApiFloat}
    (h : AcceptsNumber c ct .float16 s opt n rest r) (hm : Moderate n) (hx : half.overflowThreshold ≤ n.value) :
    r.value = some ((if n.neg then half.signBit else 0) + half.inf) ∧
    (r.ec = .ok ↔ Runtime c ∧ digitsVal n.digits ≤ 2 ^ 11 ∧ n.expVal - ((n.frac.getD []).length : Int) ≤ 4) ∧
    (r.ec = .ok ∨ r.ec = .outOfRange) := by
  have hs := scan_munch (accepts_scan hin hp h)
  have hN := half_numberSpec (c := c) hin hp (fun n' rest' h' => by rw [← (munch_unique hp hs h').1]; exact hm)
  obtain ⟨k, b, h1, h2, h3⟩ := accepts_exact hin hp h hm
  have hn := hN.holds n rest r.ec b hs (by rw [show FloatTy.float16.fmt = binary16 from rfl, show fromCharsFloat c ct binary16 s opt = .ok r from h.result, ← h1, ← h2])
  have hth : half.overflowThreshold = 65520 := by norm_num [Format.overflowThreshold, half, Format.bias]
  rw [hth] at hx
  refine ⟨((C05_overflow_float16_partial c opt hin hp h hm).1.1 (by rw [hth]; exact hx)), ?_, h3.ecs⟩
  have hec : r.ec.code = .range ↔ r.ec = .outOfRange := by cases r.ec <;> simp [Errc.code]
  have hr := hn.range
  rw [hec] at hr
  constructor
  · intro he
    by_contra hc
    have := hr.2 (Or.inr ⟨hx, hc⟩)
    rw [he] at this; cases this
  · intro hc
    rcases h3.ecs with e | e
    · exact e
    · exfalso
      rcases hr.1 e with ⟨_, a⟩ | ⟨_, a⟩
      · norm_num at a; linarith
      · exact a hc

/-- `2000e4`: one of the unreported ones. -/
example : (some 31744 : Option Nat) = some (0 + half.inf) ∧
    (Errc.ok = .ok ↔ Runtime Cfg.x64 ∧ digitsVal halfOverNumeral.digits ≤ 2 ^ 11 ∧ halfOverNumeral.expVal - ((halfOverNumeral.frac.getD []).length : Int) ≤ 4) ∧
    (Errc.ok = .ok ∨ Errc.ok = .outOfRange) :=
  C05_float16_sharp Cfg.x64 {} halfOver_input sample_point halfOver_accepts (Or.inl (by decide)) (by
    rw [value_of (n := halfOverNumeral) (D := 2000) (E := 4) (by decide) (by decide)]
    norm_num [Format.overflowThreshold, half, Format.bias])

/-- **C35 for float16, sharp**: two builds with the same feature macros give the same result if and only if the text does not start with
a number whose overflow the fast path swallows, or both are run-time calls in the default rounding mode, or neither is. -/
theorem C35_float16_sharp {c c' : Cfg} (hm : SameMacros c c') {ct : CharType} {s : List Nat} (opt : Options) (hin : Input ct s)
    (hp : (grammar c opt).PointOK) (hs : s.length + 400 ≤ 2 ^ 28) :
    fromCharsFloat c ct binary16 s opt = fromCharsFloat c' ct binary16 s opt ↔
      ((∃ n rest, Munch (grammar c opt) (textOf c opt s) n rest ∧ Swallowed n) → (Runtime c ↔ Runtime c')) := by
  have heff := hm.eff opt
  have hg : grammar c' opt = grammar c opt := by unfold grammar; rw [heff]
  have ht : textOf c' opt s = textOf c opt s := by unfold textOf; rw [heff]
  have hp' : (grammar c' opt).PointOK := by rw [hg]; exact hp
  have hN := half_numberSpec (c := c) hin hp (short_text_moderate hs)
  have hN' := half_numberSpec (c := c') hin hp' (short_text_moderate hs)
  obtain ⟨rest, code, v, hf, _⟩ := spec_exists hin hp hN
  obtain ⟨ec, e1, e2⟩ := call_of_spec hin hp hN hf
  obtain ⟨rest', code', v', hf', _⟩ := spec_exists hin hp' hN'
  obtain ⟨ec', e1', e2'⟩ := call_of_spec hin hp' hN' hf'
  have e2 : fromCharsFloat c ct binary16 s opt = .ok ⟨s.length - rest.length, ec, v⟩ := e2
  have e2' : fromCharsFloat c' ct binary16 s opt = .ok ⟨s.length - rest'.length, ec', v'⟩ := e2'
  constructor
  · rintro heq ⟨n, q, hmu, hsw⟩
    have a1 := munch_scan hp hmu
    obtain ⟨k, b, f, a2, _⟩ := scan_accepts (T := .float16) hin hp a1
    have a3 := hN.holds n q f b hmu a2.result
    have a4 : fromCharsFloat c' ct binary16 s opt = .ok ⟨s.length - q.length, f, some b⟩ := by rw [← heq]; exact a2.result
    have a5 := hN'.holds n q f b (by rw [hg, ht]; exact hmu) a4
    have r1 := a3.range
    have r2 := a5.range
    have hne : ¬ n.value < 1 / 2 ^ 25 := by
      intro h; have := hsw.1; norm_num at h; linarith
    have key : ∀ {P : Prop}, (f.code = .range ↔ (0 < n.value ∧ n.value < 1 / 2 ^ 25) ∨
        (65520 ≤ n.value ∧ ¬ (P ∧ digitsVal n.digits ≤ 2 ^ 11 ∧ n.expVal - ((n.frac.getD []).length : Int) ≤ 4))) → (f.code = .range ↔ ¬ P) := by
      intro P h
      rw [h]
      constructor
      · rintro (⟨_, h⟩ | ⟨_, h⟩)
        · exact absurd h hne
        · exact fun hP => h ⟨hP, hsw.2.1, hsw.2.2⟩
      · intro hP
        exact Or.inr ⟨hsw.1, fun h => hP h.1⟩
    have k1 := key r1
    have k2 := key r2
    have := k1.symm.trans k2
    exact not_iff_not.1 this
  · intro himp
    -- the specification for `c` also holds for `c'`
    have hf2 : FloatCall half (HalfNumber (Runtime c')) (c'.eff opt) opt.decimalPoint (textOf c' opt s) rest code v := by
      rw [← heff, ht]
      cases hf with
      | @number n _ _ bits text result =>
        refine .number text ⟨result.rounded, result.exception, result.error, ?_⟩
        rw [result.range]
        by_cases hsw : Swallowed n
        · rw [himp ⟨n, rest, text, hsw⟩]
        · have hP : ∀ P : Prop, (65520 ≤ n.value ∧ ¬ (P ∧ digitsVal n.digits ≤ 2 ^ 11 ∧ n.expVal - ((n.frac.getD []).length : Int) ≤ 4)) ↔ 65520 ≤ n.value := by
            intro P
            exact ⟨fun h => h.1, fun h => ⟨h, fun h2 => hsw ⟨h, h2.2⟩⟩⟩
          rw [hP, hP]
      | infinity allowed text => exact .infinity allowed text
      | nan allowed text => exact .nan allowed text
      | invalid a b => exact .invalid a b
    obtain ⟨ec2, g1, g2⟩ := call_of_spec (T := .float16) hin hp' hN' hf2
    have g2 : fromCharsFloat c' ct binary16 s opt = .ok ⟨s.length - rest.length, ec2, v⟩ := g2
    rw [e2, g2]
    have : ec = ec2 := by
      rw [← e1] at g1
      revert g1; cases ec <;> cases ec2 <;> simp [Errc.code]
    rw [this]

/-- `2000e4` at run time and at compile time. -/
example : ¬ fromCharsFloat Cfg.x64 CharType.char binary16 halfOverText {} = fromCharsFloat { Cfg.x64 with constEval := true } CharType.char binary16 halfOverText {} := by
  rw [C35_float16_sharp (c := Cfg.x64) (c' := { Cfg.x64 with constEval := true }) ⟨rfl, rfl⟩ {} halfOver_input sample_point (by decide)]
  intro h
  have := (h ⟨halfOverNumeral, [], scan_munch (accepts_scan halfOver_input sample_point halfOver_accepts), by
    rw [value_of (n := halfOverNumeral) (D := 2000) (E := 4) (by decide) (by decide)]; norm_num, by decide, by decide⟩).1 ⟨rfl, rfl, rfl⟩
  exact absurd this.1 (by decide)

end FastFloat
