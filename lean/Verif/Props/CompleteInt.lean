import Verif.Props.Complete
import Verif.Props.Integer
/-
# C51: the complete specification of an integer call
-/
set_option linter.unusedSimpArgs false
namespace FastFloat
open IntSpec ApiSpec

theorem readable_iff {c : Cfg} {T : IntType} {s : List Nat} {opt : Options} {neg : Bool} {ds rest : List Nat} :
    Readable T.signed (c.eff opt) opt.base (textOf c opt s) neg ds rest ↔ IntLiteral c T s opt opt.base.toNat neg ds rest := by
  constructor
  · intro h
    have h1 := h.two
    have h2 := h.max
    exact ⟨by omega, by omega, by omega, h.literal, h.sign⟩
  · intro h
    have h0 := h.base
    have h1 := h.two
    have h2 := h.max
    exact ⟨by omega, by omega, h.literal, h.sign⟩

theorem literal_suffix {c : Cfg} {T : IntType} {s : List Nat} {opt : Options} {b : Nat} {neg : Bool} {ds rest : List Nat}
    (h : IntLiteral c T s opt b neg ds rest) : ∃ p, textOf c opt s = p ++ rest := by
  rcases h.literal.text with ⟨_, h⟩ | ⟨_, h⟩ | ⟨_, _, h⟩
  · exact ⟨45 :: ds, by rw [h]; simp⟩
  · exact ⟨ds, h⟩
  · exact ⟨43 :: ds, by rw [h]; simp⟩

/-- `number` describes what the code does with a literal, for one configuration, character type, integer type and options. -/
def IntNumberSpec (c : Cfg) (ct : CharType) (T : IntType) (opt : Options) (number : Bool → Nat → Code → Option Int → Prop) : Prop :=
  ∀ {s : List Nat} {neg : Bool} {ds rest : List Nat}, Input ct s → IntLiteral c T s opt opt.base.toNat neg ds rest →
    (∃ code v, number neg (value opt.base.toNat ds) code v) ∧
    ∀ {code v}, number neg (value opt.base.toNat ds) code v → ∃ ec : Errc, ec.code = code ∧ fromCharsIntApi c ct T s opt = .ok ⟨s.length - rest.length, ec, v⟩

/-- Anything but a literal is rejected. -/
def IntRejects (c : Cfg) (ct : CharType) (T : IntType) (opt : Options) : Prop :=
  ∀ {s : List Nat}, Input ct s → (¬ ∃ b neg ds rest, IntLiteral c T s opt b neg ds rest) →
    fromCharsIntApi c ct T s opt = .ok ⟨s.length - (textOf c opt s).length, .invalidArgument, none⟩

theorem rejects_of_wf {c : Cfg} {ct : CharType} {T : IntType} (hT : T.WF) {opt : Options} : IntRejects c ct T opt :=
  fun hin h => C30_int_rejected c hT opt hin h

theorem int_call_of_spec {c : Cfg} {ct : CharType} {T : IntType} {s : List Nat} {opt : Options} (hT : IntRejects c ct T opt) (hin : Input ct s)
    {number : Bool → Nat → Code → Option Int → Prop} (hn : IntNumberSpec c ct T opt number)
    {rest : List Nat} {code : Code} {v : Option Int} (h : IntCall T.signed number (c.eff opt) opt.base (textOf c opt s) rest code v) :
    (∃ p, textOf c opt s = p ++ rest) ∧ ∃ ec, ec.code = code ∧ fromCharsIntApi c ct T s opt = .ok ⟨s.length - rest.length, ec, v⟩ := by
  cases h with
  | number h result =>
    rw [readable_iff] at h
    exact ⟨literal_suffix h, (hn hin h).2 result⟩
  | invalid h =>
    refine ⟨⟨[], rfl⟩, .invalidArgument, rfl, hT hin ?_⟩
    rintro ⟨b, neg, ds, rest, hl⟩
    have hb : b = opt.base.toNat := by have := hl.base; omega
    subst hb
    exact h ⟨neg, ds, rest, readable_iff.2 hl⟩

theorem int_spec_exists {c : Cfg} {ct : CharType} {T : IntType} {s : List Nat} {opt : Options} (hin : Input ct s)
    {number : Bool → Nat → Code → Option Int → Prop} (hn : IntNumberSpec c ct T opt number) :
    ∃ rest code v, IntCall T.signed number (c.eff opt) opt.base (textOf c opt s) rest code v := by
  by_cases h : ∃ neg ds rest, Readable T.signed (c.eff opt) opt.base (textOf c opt s) neg ds rest
  · obtain ⟨neg, ds, rest, h⟩ := h
    obtain ⟨code, v, hv⟩ := (hn hin (readable_iff.1 h)).1
    exact ⟨_, _, _, .number h hv⟩
  · exact ⟨_, _, _, .invalid h⟩

theorem int_complete_of (c : Cfg) {ct : CharType} {T : IntType} {s : List Nat} (opt : Options) (hT : IntRejects c ct T opt) (hin : Input ct s)
    {number : Bool → Nat → Code → Option Int → Prop} (hn : IntNumberSpec c ct T opt number) (r : ApiInt) :
    fromCharsIntApi c ct T s opt = .ok r ↔
      r.off ≤ s.length ∧ IntCall T.signed number (c.eff opt) opt.base (textOf c opt s) (s.drop r.off) r.ec.code r.value := by
  constructor
  · intro h
    obtain ⟨rest, code, v, hf⟩ := int_spec_exists hin hn
    obtain ⟨⟨p, hp⟩, ec, e1, e2⟩ := int_call_of_spec hT hin hn hf
    have := e2.symm.trans h
    cases this
    obtain ⟨ws, w1, _⟩ := textOf_suffix c opt s
    rw [hp, ← List.append_assoc] at w1
    have hd : s.drop (s.length - rest.length) = rest := by
      have : s.length - rest.length = (ws ++ p).length := by rw [w1]; simp; omega
      rw [this]
      conv_lhs => rw [w1, List.drop_left]
    simp only
    rw [hd, e1]
    exact ⟨by omega, hf⟩
  · rintro ⟨h1, h2⟩
    obtain ⟨_, ec, e1, e2⟩ := int_call_of_spec hT hin hn h2
    rw [e2]
    have e3 : ec = r.ec := by
      revert e1; cases ec <;> cases r.ec <;> simp [Errc.code]
    rw [e3, List.length_drop]
    congr 1
    cases r
    simp only [ApiInt.mk.injEq, and_true]
    simp only at h1
    omega

theorem int_deterministic_of (c : Cfg) {ct : CharType} {T : IntType} {s : List Nat} (opt : Options) (hT : IntRejects c ct T opt) (hin : Input ct s)
    {number : Bool → Nat → Code → Option Int → Prop} (hn : IntNumberSpec c ct T opt number) :
    ∃! r : Nat × Errc × Option Int, r.1 ≤ s.length ∧ IntCall T.signed number (c.eff opt) opt.base (textOf c opt s) (s.drop r.1) r.2.1.code r.2.2 := by
  have h := int_complete_of c opt hT hin hn
  obtain ⟨rest, code, v, hf⟩ := int_spec_exists hin hn
  obtain ⟨_, ec, e1, e2⟩ := int_call_of_spec hT hin hn hf
  refine ⟨⟨s.length - rest.length, ec, v⟩, (h _).1 e2, ?_⟩
  rintro ⟨a, b, d⟩ hy
  have := (h ⟨a, b, d⟩).2 hy
  rw [e2] at this
  cases this; rfl

theorem exact_numberSpec {c : Cfg} {ct : CharType} {T : IntType} (hT : T.WF) {opt : Options} (hx : SoundCheck T opt.base) :
    IntNumberSpec c ct T opt (ExactInt T.bits T.signed) := by
  intro s neg ds rest hin h
  refine ⟨?_, ?_⟩
  · by_cases hf : Fits T.bits T.signed (IntSpec.signedValue neg (value opt.base.toNat ds))
    · exact ⟨_, _, .fits hf⟩
    · exact ⟨_, _, .overflow hf⟩
  · intro code v hv
    cases hv with
    | fits fits => exact ⟨.ok, rfl, C27_int_exact c hT opt hin h fits⟩
    | overflow fits =>
      refine ⟨.outOfRange, rfl, C29_overflow c hT opt hin h fits ?_⟩
      have := h.base
      rcases hx with hx | hx | ⟨hx, hx'⟩
      · exact Or.inl hx
      · exact Or.inr (Or.inl (by omega))
      · exact Or.inr (Or.inr ⟨hx, by omega⟩)

theorem actual_numberSpec {c : Cfg} {ct : CharType} {T : IntType} (hT : T.WF) {opt : Options} :
    IntNumberSpec c ct T opt (ActualInt T.bits T.signed opt.base.toNat) := by
  intro s neg ds rest hin h
  refine ⟨?_, ?_⟩
  · by_cases hf : Fits T.bits T.signed (IntSpec.signedValue neg (value opt.base.toNat ds))
    · exact ⟨_, _, .fits hf⟩
    by_cases he : Escapes opt.base.toNat (value opt.base.toNat ds) ∧ Fits T.bits T.signed (IntSpec.signedValue neg (value opt.base.toNat ds % 2 ^ 64))
    · exact ⟨_, _, .wrapped he.1 he.2⟩
    · exact ⟨_, _, .overflow hf he⟩
  · intro code v hv
    cases hv with
    | fits fits => exact ⟨.ok, rfl, C27_int_exact c hT opt hin h fits⟩
    | wrapped he hf => exact ⟨.ok, rfl, (C28_undetected c hT opt hin h he hf).1⟩
    | overflow hf he => exact ⟨.outOfRange, rfl, C28_overflow_partial c hT opt hin h hf he⟩

/-- **C51, partial**: the result of an integer call is exactly the one specified - for every configuration, character type, integer type of at most 64 bits,
options and text - wherever the overflow check is sound.  Missing: 64-bit types in the other bases, where the code is wrong (`C28_undetected`, `C29_sharp`; see
`C53_actual_int` for what it does there). -/
theorem C51_complete_int_partial (c : Cfg) {ct : CharType} {T : IntType} (hT : T.WF) {s : List Nat} (opt : Options) (hin : Input ct s)
    (hx : SoundCheck T opt.base) (r : ApiInt) :
    fromCharsIntApi c ct T s opt = .ok r ↔
      r.off ≤ s.length ∧ IntCall T.signed (ExactInt T.bits T.signed) (c.eff opt) opt.base (textOf c opt s) (s.drop r.off) r.ec.code r.value :=
  int_complete_of c opt (rejects_of_wf hT) hin (exact_numberSpec hT hx) r

/-- **C51**: the specification allows exactly one result. -/
theorem C51_deterministic (c : Cfg) {ct : CharType} {T : IntType} (hT : T.WF) {s : List Nat} (opt : Options) (hin : Input ct s) (hx : SoundCheck T opt.base) :
    ∃! r : Nat × Errc × Option Int,
      r.1 ≤ s.length ∧ IntCall T.signed (ExactInt T.bits T.signed) (c.eff opt) opt.base (textOf c opt s) (s.drop r.1) r.2.1.code r.2.2 :=
  int_deterministic_of c opt (rejects_of_wf hT) hin (exact_numberSpec hT hx)

/-- **C53**: for every integer type of at most 64 bits and every base, the result of a call is exactly the one that the specification of the actual behaviour
gives: as C51, except that a magnitude that escapes the overflow check is replaced by its residue modulo `2^64`. -/
theorem C53_actual_int (c : Cfg) {ct : CharType} {T : IntType} (hT : T.WF) {s : List Nat} (opt : Options) (hin : Input ct s) (r : ApiInt) :
    fromCharsIntApi c ct T s opt = .ok r ↔
      r.off ≤ s.length ∧ IntCall T.signed (ActualInt T.bits T.signed opt.base.toNat) (c.eff opt) opt.base (textOf c opt s) (s.drop r.off) r.ec.code r.value :=
  int_complete_of c opt (rejects_of_wf hT) hin (actual_numberSpec hT) r

/-- **C53**: there is always exactly one such result. -/
theorem C53_deterministic (c : Cfg) {ct : CharType} {T : IntType} (hT : T.WF) {s : List Nat} (opt : Options) (hin : Input ct s) :
    ∃! r : Nat × Errc × Option Int,
      r.1 ≤ s.length ∧ IntCall T.signed (ActualInt T.bits T.signed opt.base.toNat) (c.eff opt) opt.base (textOf c opt s) (s.drop r.1) r.2.1.code r.2.2 :=
  int_deterministic_of c opt (rejects_of_wf hT) hin (actual_numberSpec hT)

example : ∃! r : Nat × Errc × Option Int, r.1 ≤ 3 ∧ IntCall false (ExactInt 8 false) (Cfg.x64.eff {}) 10 [50, 53, 54] ([50, 53, 54].drop r.1) r.2.1.code r.2.2 :=
  C51_deterministic Cfg.x64 (T := uint8) (by decide) {} (input_of_bytes (s := [50, 53, 54]) (by decide) (by decide)) (Or.inl (by decide))

/-- "-128x" as `int8_t`, "256" as `uint8_t`: what the specification says. -/
example : IntCall true (ExactInt 8 true) 5 10 [45, 49, 50, 56, 120] [120] .success (some (-128)) :=
  ((C51_complete_int_partial Cfg.x64 (ct := CharType.char) (T := ⟨8, true, false, false, false⟩) (by decide) (s := [45, 49, 50, 56, 120]) {} ⟨by decide, by decide, by decide⟩
    (Or.inl (by decide)) ⟨4, .ok, some (-128)⟩).1 (by decide +kernel)).2
example : IntCall false (ExactInt 8 false) 5 10 [50, 53, 54] [] .range none :=
  ((C51_complete_int_partial Cfg.x64 (ct := CharType.char) (T := uint8) (by decide) (s := [50, 53, 54]) {} ⟨by decide, by decide, by decide⟩
    (Or.inl (by decide)) ⟨3, .outOfRange, none⟩).1 (by decide +kernel)).2
/-- "30000000000000000000" as `uint64_t`: the specification of the actual behaviour says 11553255926290448384. -/
example : IntCall false (ActualInt 64 false 10) 5 10 (51 :: List.replicate 19 48) [] .success (some 11553255926290448384) :=
  ((C53_actual_int Cfg.x64 (ct := CharType.char) (T := uint64) (by decide) (s := 51 :: List.replicate 19 48) {} ⟨by decide, by decide, by decide⟩
    ⟨20, .ok, some 11553255926290448384⟩).1 (by decide +kernel)).2
example : ∃! r : Nat × Errc × Option Int, r.1 ≤ 3 ∧ IntCall false (ActualInt 64 false 10) (Cfg.x64.eff {}) 10 [50, 53, 54] ([50, 53, 54].drop r.1) r.2.1.code r.2.2 :=
  C53_deterministic Cfg.x64 (T := uint64) (by decide) {} (input_of_bytes (s := [50, 53, 54]) (by decide) (by decide))

end FastFloat
