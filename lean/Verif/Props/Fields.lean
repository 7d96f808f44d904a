import Verif.Model.Clients
import Verif.Spec.Fields
import Verif.Props.Ipv4
/-
# C85: the benchmark on lists of `uint16_t` reads exactly the lists of numbers
-/
set_option autoImplicit false
namespace FastFloat
open NumSpec FloatSpec ApiSpec IntSpec FieldSpec Client

theorem u16_wf : u16.WF := by decide

theorem u16_call {c : Cfg} (hc : Plain c) {ct : CharType} {s : List Nat} (hin : Input ct s) (r : ApiInt) :
    fromCharsInt c ct u16 s 10 = .ok r ↔
      r.off ≤ s.length ∧ IntCall false (ExactInt 16 false) (c.eff { base := 10 }) 10 s (s.drop r.off) r.ec.code r.value := by
  have := C51_complete_int_partial c u16_wf { base := 10 } hin (Or.inl (by decide)) r
  rw [plain_text hc] at this
  exact this

/-- One number: `from_chars` for `uint16_t` succeeds exactly on a maximal run of digits that writes a number of at most 65535. -/
theorem u16_ok_iff {c : Cfg} (hc : Plain c) {ct : CharType} {s : List Nat} (hin : Input ct s) (off : Nat) (val : Option Int) :
    fromCharsInt c ct u16 s 10 = .ok ⟨off, .ok, val⟩ ↔
      ∃ g rest v, s = g ++ rest ∧ Number 65535 g v ∧ NoDecimal rest ∧ off = g.length ∧ val = some (v : Int) := by
  rw [u16_call hc hin]
  constructor
  · rintro ⟨ho, h⟩
    replace ho : off ≤ s.length := ho
    generalize hr : s.drop off = rest at h
    generalize hcode : Errc.ok.code = code at h
    cases h with
    | @number neg ds _ _ _ hread hres =>
      obtain ⟨rfl, h2, h3, h4, h5⟩ := (u8_readable hc).1 hread
      cases hres with
      | fits hf =>
        refine ⟨ds, rest, value 10 ds, h2, ⟨h3, h4, rfl, ?_⟩, h5, ?_, rfl⟩
        · have := hf.2
          simp [IntSpec.signedValue, maxValue] at this
          omega
        · have e : (s.drop off).length = rest.length := by rw [hr]
          rw [List.length_drop] at e
          rw [h2, List.length_append] at e ho
          omega
      | overflow hf => simp [Errc.code] at hcode
    | invalid hno => simp [Errc.code] at hcode
  · rintro ⟨g, rest, v, rfl, ho, hn, rfl, rfl⟩
    refine ⟨by simp, ?_⟩
    simp only
    rw [List.drop_left]
    have hf : Fits 16 false (IntSpec.signedValue false (value (10 : Int).toNat g)) := by
      have := ho.small
      have hv := ho.value
      have e : (10 : Int).toNat = 10 := rfl
      rw [e, hv]
      simp [Fits, IntSpec.signedValue, minValue, maxValue]
      omega
    have := IntCall.number (number := ExactInt 16 false) ((u8_readable hc).2 ⟨rfl, rfl, ho.digits, ho.nonempty, hn⟩) (.fits hf)
    have e : (10 : Int).toNat = 10 := rfl
    rw [e, ho.value] at this
    exact this

theorem u16_total {c : Cfg} (hc : Plain c) {ct : CharType} {s : List Nat} (hin : Input ct s) : ∃ r, fromCharsInt c ct u16 s 10 = .ok r := by
  obtain ⟨⟨off, ec, v⟩, h, _⟩ := C51_deterministic c u16_wf { base := 10 } hin (Or.inl (by decide))
  rw [plain_text hc] at h
  exact ⟨⟨off, ec, v⟩, (u16_call hc hin _).2 h⟩

theorem digits_unique {g g' r r' : List Nat} (h1 : ∀ u ∈ g, 48 ≤ u ∧ u ≤ 57) (h2 : ∀ u ∈ g', 48 ≤ u ∧ u ≤ 57) (h3 : NoDecimal r) (h4 : NoDecimal r')
    (h : g ++ r = g' ++ r') : g = g' ∧ r = r' := by
  induction g generalizing g' with
  | nil =>
    cases g' with
    | nil => exact ⟨rfl, h⟩
    | cons x xs =>
      have h' : r = x :: (xs ++ r') := h
      exact absurd (h2 x (by simp)) (h3 x (by rw [h']; rfl))
  | cons y ys ih =>
    cases g' with
    | nil =>
      have h' : y :: (ys ++ r) = r' := h
      exact absurd (h1 y (by simp)) (h4 y (by rw [← h']; rfl))
    | cons x xs =>
      simp only [List.cons_append, List.cons.injEq] at h
      obtain ⟨e, h⟩ := h
      obtain ⟨a, b⟩ := ih (fun u hu => h1 u (by simp [hu])) (fun u hu => h2 u (by simp [hu])) h
      exact ⟨by rw [e, a], b⟩

/-- Numbers separated by the delimiter, then `rest`. -/
def Groups16 (d : Nat) : List Nat → List Nat → List Nat → Prop
  | [], s, rest => s = rest
  | [v], s, rest => ∃ g, s = g ++ rest ∧ Number 65535 g v ∧ NoDecimal rest
  | v :: vs, s, rest => ∃ g s', s = g ++ d :: s' ∧ Number 65535 g v ∧ Groups16 d vs s' rest

theorem noDecimal_delim {d : Nat} (hd : ¬ (48 ≤ d ∧ d ≤ 57)) (s : List Nat) : NoDecimal (d :: s) := by
  intro u hu
  simp at hu
  omega

theorem groups16_nil {d : Nat} : ∀ {vs s : List Nat}, Groups16 d vs s [] ↔ NumberList 65535 d s vs := by
  intro vs
  induction vs with
  | nil =>
    intro s
    constructor
    · rintro rfl; exact ⟨[], rfl, .nil⟩
    · rintro ⟨gs, rfl, h⟩; cases h; rfl
  | cons v vs ih =>
    intro s
    cases vs with
    | nil =>
      constructor
      · rintro ⟨g, rfl, h, _⟩
        exact ⟨[g], by simp [joined], .cons h .nil⟩
      · rintro ⟨gs, rfl, h⟩
        cases h with
        | cons h h' => cases h'; exact ⟨_, by simp [joined], h, fun u hu => by simp at hu⟩
    | cons w vs =>
      constructor
      · rintro ⟨g, s', rfl, h, h'⟩
        obtain ⟨gs, rfl, hg⟩ := ih.1 h'
        refine ⟨g :: gs, ?_, .cons h hg⟩
        cases hg; rfl
      · rintro ⟨gs, rfl, h⟩
        cases h with
        | @cons g _ gs _ h h' =>
          refine ⟨g, joined d gs, ?_, h, ih.2 ⟨gs, rfl, h'⟩⟩
          cases h'; rfl

theorem input_tail {ct : CharType} {g s' : List Nat} {d : Nat} (hin : Input ct (g ++ d :: s')) : Input ct s' :=
  ⟨hin.wf, fun u hu => hin.units u (by simp [hu]), by have := hin.len; rw [List.length_append, List.length_cons] at this; omega⟩

/-- The first step of the two loops, in case of success. -/
theorem groups_step {d : Nat} (hd : ¬ (48 ≤ d ∧ d ≤ 57)) {g rest : List Nat} {v : Nat} (hg : Number 65535 g v) (hn : NoDecimal rest) {w : Nat} {vs out : List Nat} :
    Groups16 d (w :: vs) (g ++ rest) out ↔ w = v ∧ ∃ p, skipDelim d vs.isEmpty rest = some p ∧ Groups16 d vs p out := by
  cases vs with
  | nil =>
    simp only [List.isEmpty_nil, skipDelim, if_true]
    constructor
    · rintro ⟨g', h1, h2, h3⟩
      obtain ⟨rfl, rfl⟩ := digits_unique hg.digits h2.digits hn h3 h1
      exact ⟨h2.value.symm.trans hg.value, _, rfl, rfl⟩
    · rintro ⟨rfl, p, h1, h2⟩
      cases h1; cases h2
      exact ⟨g, rfl, hg, hn⟩
  | cons x xs =>
    simp only [List.isEmpty_cons, skipDelim, Bool.false_eq_true, if_false]
    constructor
    · rintro ⟨g', s', h1, h2, h3⟩
      obtain ⟨rfl, rfl⟩ := digits_unique hg.digits h2.digits hn (noDecimal_delim hd s') h1
      exact ⟨h2.value.symm.trans hg.value, s', by simp, h3⟩
    · rintro ⟨rfl, p, h1, h2⟩
      cases rest with
      | nil => simp at h1
      | cons ch q =>
        by_cases hch : ch = d
        · subst hch
          simp at h1
          subst h1
          exact ⟨g, q, rfl, hg, h2⟩
        · simp [hch] at h1

theorem groups_head {d : Nat} (hd : ¬ (48 ≤ d ∧ d ≤ 57)) {w : Nat} {vs s out : List Nat} (h : Groups16 d (w :: vs) s out) :
    ∃ g rest, s = g ++ rest ∧ Number 65535 g w ∧ NoDecimal rest := by
  cases vs with
  | nil => obtain ⟨g, h1, h2, h3⟩ := h; exact ⟨g, out, h1, h2, h3⟩
  | cons x xs => obtain ⟨g, s', h1, h2, _⟩ := h; exact ⟨g, _, h1, h2, noDecimal_delim hd s'⟩

theorem input_skip {ct : CharType} {d : Nat} {last : Bool} {g rest p : List Nat} (hin : Input ct (g ++ rest)) (h : skipDelim d last rest = some p) : Input ct p := by
  have : ∀ q : List Nat, (∀ u ∈ q, u ∈ rest) → q.length ≤ rest.length → Input ct q := fun q h1 h2 =>
    ⟨hin.wf, fun u hu => hin.units u (by simp [h1 u hu]), by have := hin.len; rw [List.length_append] at this; omega⟩
  unfold skipDelim at h
  split at h
  · cases h; exact this _ (fun _ h => h) le_rfl
  · split at h
    · cases h
    · split at h
      · cases h
      · cases h; exact this _ (fun u hu => by simp [hu]) (by simp)

theorem validateLoop_iff {c : Cfg} (hc : Plain c) {ct : CharType} {d : Nat} (hd : ¬ (48 ≤ d ∧ d ≤ 57)) : ∀ (expected : List Nat) {s : List Nat} (_ : Input ct s),
    (∃ o, validateLoop c ct d expected s = .ok o) ∧ ∀ rest, validateLoop c ct d expected s = .ok (some rest) ↔ Groups16 d expected s rest := by
  intro expected
  induction expected with
  | nil =>
    intro s _
    simp [validateLoop, Groups16]
  | cons e es ih =>
    intro s hin
    obtain ⟨⟨off, ec, val⟩, hr⟩ := u16_total hc hin
    by_cases he : ec = .ok
    · subst he
      obtain ⟨g, rest, v, rfl, ho, hn, rfl, rfl⟩ := (u16_ok_iff hc hin _ _).1 hr
      by_cases hv : v = e
      · subst hv
        cases hsk : skipDelim d es.isEmpty rest with
        | none =>
          have ev : validateLoop c ct d (v :: es) (g ++ rest) = .ok none := by
            rw [validateLoop]
            simp only [bind, Except.bind, hr]
            simp [hsk, pure, Except.pure]
          refine ⟨⟨_, ev⟩, fun out => ?_⟩
          rw [ev, groups_step hd ho hn, hsk]
          simp
        | some p =>
          obtain ⟨⟨o, t⟩, i⟩ := ih (input_skip hin hsk)
          have ev : validateLoop c ct d (v :: es) (g ++ rest) = validateLoop c ct d es p := by
            rw [validateLoop]
            simp only [bind, Except.bind, hr]
            simp [hsk]
          refine ⟨⟨o, ev.trans t⟩, fun out => ?_⟩
          rw [ev, i, groups_step hd ho hn, hsk]
          simp
      · have ev : validateLoop c ct d (e :: es) (g ++ rest) = .ok none := by
          rw [validateLoop]
          simp only [bind, Except.bind, hr]
          simp [hv, pure, Except.pure]
        refine ⟨⟨_, ev⟩, fun out => ?_⟩
        rw [ev, groups_step hd ho hn]
        simp
        intro h
        exact absurd h.symm hv
    · have ev : validateLoop c ct d (e :: es) s = .ok none := by
        rw [validateLoop]
        simp only [bind, Except.bind, hr]
        simp [he, pure, Except.pure]
      refine ⟨⟨_, ev⟩, fun out => ?_⟩
      rw [ev]
      constructor
      · intro h; simp at h
      · intro h
        obtain ⟨g, rest, rfl, h1, h2⟩ := groups_head hd h
        have := (u16_ok_iff hc hin _ _).2 ⟨g, rest, e, rfl, h1, h2, rfl, rfl⟩
        rw [hr] at this
        simp at this
        exact absurd this.2.1 he

theorem sumLoop_iff {c : Cfg} (hc : Plain c) {ct : CharType} {d : Nat} (hd : ¬ (48 ≤ d ∧ d ≤ 57)) : ∀ (n : Nat) {s : List Nat} (_ : Input ct s) (sum : Nat) (_ : sum < 2 ^ 64),
    (∃ o, sumLoop c ct d n s sum = .ok o) ∧
    ∀ r rest, sumLoop c ct d n s sum = .ok (some (r, rest)) ↔ ∃ vs, vs.length = n ∧ Groups16 d vs s rest ∧ r = (sum + vs.sum) % 2 ^ 64 := by
  intro n
  induction n with
  | zero =>
    intro s _ sum hs
    refine ⟨⟨_, rfl⟩, fun r rest => ?_⟩
    simp only [sumLoop, Except.ok.injEq, Option.some.injEq, Prod.mk.injEq]
    constructor
    · rintro ⟨rfl, rfl⟩
      exact ⟨[], rfl, rfl, (Nat.mod_eq_of_lt hs).symm⟩
    · rintro ⟨vs, h1, h2, rfl⟩
      have := List.length_eq_zero_iff.1 h1
      subst this
      exact ⟨(Nat.mod_eq_of_lt hs).symm, h2⟩
  | succ n ih =>
    intro s hin sum hs
    obtain ⟨⟨off, ec, val⟩, hr⟩ := u16_total hc hin
    by_cases he : ec = .ok
    · subst he
      obtain ⟨g, rest, v, rfl, ho, hn, rfl, rfl⟩ := (u16_ok_iff hc hin _ _).1 hr
      have hemp : ∀ vs : List Nat, vs.length = n → vs.isEmpty = (n == 0) := by
        intro vs h; subst h; cases vs <;> simp
      cases hsk : skipDelim d (n == 0) rest with
      | none =>
        have ev : sumLoop c ct d (n + 1) (g ++ rest) sum = .ok none := by
          rw [sumLoop]
          simp only [bind, Except.bind, hr]
          simp [hsk, pure, Except.pure]
        refine ⟨⟨_, ev⟩, fun r out => ?_⟩
        rw [ev]
        constructor
        · intro h; simp at h
        · rintro ⟨vs, hl, hg, _⟩
          cases vs with
          | nil => simp at hl
          | cons w vs =>
            simp at hl
            rw [groups_step hd ho hn, hemp vs hl, hsk] at hg
            simp at hg
      | some p =>
        obtain ⟨⟨o, t⟩, i⟩ := ih (input_skip hin hsk) ((sum + v) % 2 ^ 64) (Nat.mod_lt _ (by norm_num))
        have ev : sumLoop c ct d (n + 1) (g ++ rest) sum = sumLoop c ct d n p ((sum + v) % 2 ^ 64) := by
          rw [sumLoop]
          simp only [bind, Except.bind, hr]
          simp [hsk]
        refine ⟨⟨o, ev.trans t⟩, fun r out => ?_⟩
        rw [ev, i]
        constructor
        · rintro ⟨vs, hl, hg, rfl⟩
          refine ⟨v :: vs, by simp [hl], (groups_step hd ho hn).2 ⟨rfl, p, by rw [hemp vs hl, hsk], hg⟩, ?_⟩
          rw [Nat.mod_add_mod, List.sum_cons, Nat.add_assoc]
        · rintro ⟨vs, hl, hg, rfl⟩
          cases vs with
          | nil => simp at hl
          | cons w vs =>
            simp at hl
            obtain ⟨rfl, q, h1, h2⟩ := (groups_step hd ho hn).1 hg
            rw [hemp vs hl, hsk] at h1
            cases h1
            refine ⟨vs, hl, h2, ?_⟩
            rw [Nat.mod_add_mod, List.sum_cons, Nat.add_assoc]
    · have ev : sumLoop c ct d (n + 1) s sum = .ok none := by
        rw [sumLoop]
        simp only [bind, Except.bind, hr]
        simp [he, pure, Except.pure]
      refine ⟨⟨_, ev⟩, fun r out => ?_⟩
      rw [ev]
      constructor
      · intro h; simp at h
      · rintro ⟨vs, hl, hg, _⟩
        cases vs with
        | nil => simp at hl
        | cons w vs =>
          obtain ⟨g, rest, rfl, h1, h2⟩ := groups_head hd hg
          have := (u16_ok_iff hc hin _ _).2 ⟨g, rest, w, rfl, h1, h2, rfl, rfl⟩
          rw [hr] at this
          simp at this
          exact absurd this.2.1 he

/-- **C85**: `validate` passes if and only if the buffer is the list of the expected numbers, each at most 65535, with the delimiter (any character but a digit)
between them and nothing else - for lists of any length. -/
theorem C85_validate {c : Cfg} (hc : Plain c) {ct : CharType} {s : List Nat} (hin : Input ct s) (expected : List Nat) {d : Nat} (hd : ¬ (48 ≤ d ∧ d ≤ 57)) :
    validate c ct s expected d = .ok true ↔ NumberList 65535 d s expected := by
  obtain ⟨⟨o, ho⟩, hi⟩ := validateLoop_iff (ct := ct) hc hd expected hin
  rw [← groups16_nil, ← hi, validate]
  simp only [bind, Except.bind, ho]
  cases o with
  | none => simp [pure, Except.pure]
  | some p => cases p <;> simp [pure, Except.pure]

/-- **C85**: otherwise it aborts; nothing undefined happens. -/
theorem C85_validate_total {c : Cfg} (hc : Plain c) {ct : CharType} {s : List Nat} (hin : Input ct s) (expected : List Nat) {d : Nat} (hd : ¬ (48 ≤ d ∧ d ≤ 57)) :
    ∃ b, validate c ct s expected d = .ok b := by
  obtain ⟨⟨o, ho⟩, hi⟩ := validateLoop_iff (ct := ct) hc hd expected hin
  rw [validate]
  simp only [bind, Except.bind, ho]
  cases o with
  | none => simp [pure, Except.pure]
  | some p => cases p <;> simp [pure, Except.pure]

/-- **C85**: the summing loop for `n` numbers ends with `sum` if and only if the buffer is a list of `n` numbers with that sum (in 64 bits). -/
theorem C85_sum {c : Cfg} (hc : Plain c) {ct : CharType} {s : List Nat} (hin : Input ct s) (n : Nat) {d : Nat} (hd : ¬ (48 ≤ d ∧ d ≤ 57)) (sum : Nat) :
    sumAll c ct s n d = .ok (some sum) ↔ ∃ vs, vs.length = n ∧ NumberList 65535 d s vs ∧ sum = vs.sum % 2 ^ 64 := by
  obtain ⟨⟨o, ho⟩, hi⟩ := sumLoop_iff (ct := ct) hc hd n hin 0 (by norm_num)
  have : (∃ vs, vs.length = n ∧ NumberList 65535 d s vs ∧ sum = vs.sum % 2 ^ 64) ↔ sumLoop c ct d n s 0 = .ok (some (sum, [])) := by
    rw [hi]
    simp only [groups16_nil, Nat.zero_add]
  rw [this, sumAll]
  simp only [bind, Except.bind, ho]
  match o with
  | none => simp [pure, Except.pure]
  | some (q, p) => cases p <;> simp [pure, Except.pure]

theorem number_list_small {d : Nat} {s vs : List Nat} (h : NumberList 65535 d s vs) : ∀ v ∈ vs, v ≤ 65535 := by
  obtain ⟨gs, hj, h⟩ := h
  clear hj
  induction h with
  | nil => simp
  | cons h _ ih =>
    intro v hv
    rcases List.mem_cons.1 hv with rfl | hv
    · exact h.small
    · exact ih v hv

theorem sum_le {vs : List Nat} {m : Nat} (h : ∀ v ∈ vs, v ≤ m) : vs.sum ≤ m * vs.length := by
  induction vs with
  | nil => simp
  | cons v vs ih =>
    have h1 := h v (by simp)
    have h2 := ih (fun u hu => h u (by simp [hu]))
    rw [List.sum_cons, List.length_cons, Nat.mul_succ]
    omega

/-- **C85**: for the `N = 500000` numbers of the benchmark (any number up to `2^47`) the sum does not wrap. -/
theorem C85_sum_exact {c : Cfg} (hc : Plain c) {ct : CharType} {s : List Nat} (hin : Input ct s) {n : Nat} (hn : n ≤ 2 ^ 47) {d : Nat} (hd : ¬ (48 ≤ d ∧ d ≤ 57))
    {vs : List Nat} (hl : vs.length = n) (h : NumberList 65535 d s vs) : sumAll c ct s n d = .ok (some vs.sum) := by
  refine (C85_sum hc hin n hd _).2 ⟨vs, hl, h, ?_⟩
  have := sum_le (number_list_small h)
  rw [hl] at this
  rw [Nat.mod_eq_of_lt]
  calc vs.sum ≤ 65535 * n := this
    _ ≤ 65535 * 2 ^ 47 := Nat.mul_le_mul_left _ hn
    _ < 2 ^ 64 := by norm_num

theorem number_render {v : Nat} (h : v ≤ 65535) : Number 65535 (u8ToChars v) v := by
  rw [u8ToChars_render]
  obtain ⟨h1, h2, h3⟩ := render_facts (b := 10) (by omega) (by omega) (fun _ => false) v
  exact ⟨fun u hu => digit10.1 (h2 u hu).1, h3, h1, h⟩

theorem buildBuffer_list {d : Nat} : ∀ {vs : List Nat}, (∀ v ∈ vs, v ≤ 65535) → NumberList 65535 d (buildBuffer d vs) vs := by
  intro vs
  induction vs with
  | nil => intro _; exact ⟨[], rfl, .nil⟩
  | cons v vs ih =>
    intro h
    obtain ⟨gs, e, hg⟩ := ih (fun u hu => h u (by simp [hu]))
    refine ⟨u8ToChars v :: gs, ?_, .cons (number_render (h v (by simp))) hg⟩
    cases hg with
    | nil => rfl
    | cons _ _ =>
      show u8ToChars v ++ d :: buildBuffer d _ = _
      rw [e]; rfl

/-- **C85**: whatever numbers the generator draws, the buffer that is built from them passes the validation, and the sum of the benchmark is theirs. -/
theorem C85_round_trip {c : Cfg} (hc : Plain c) {ct : CharType} {vs : List Nat} (hv : ∀ v ∈ vs, v ≤ 65535) (hl : vs.length ≤ 2 ^ 47) {d : Nat}
    (hd : ¬ (48 ≤ d ∧ d ≤ 57)) (hin : Input ct (buildBuffer d vs)) :
    validate c ct (buildBuffer d vs) vs d = .ok true ∧ sumAll c ct (buildBuffer d vs) vs.length d = .ok (some vs.sum) :=
  ⟨(C85_validate hc hin vs hd).2 (buildBuffer_list hv), C85_sum_exact hc hin hl hd rfl (buildBuffer_list hv)⟩

/-! ### Concrete cases -/

/-- "65535,007,0" -/
def sampleList : List Nat := [54, 53, 53, 51, 53, 44, 48, 48, 55, 44, 48]

theorem sample_list_input : Input CharType.char sampleList := input_of_bytes (by decide) (by decide)

theorem sample_number_list : NumberList 65535 44 sampleList [65535, 7, 0] :=
  ⟨[[54, 53, 53, 51, 53], [48, 48, 55], [48]], rfl, .cons ⟨by decide, by decide, by decide, by decide⟩
    (.cons ⟨by decide, by decide, by decide, by decide⟩ (.cons ⟨by decide, by decide, by decide, by decide⟩ .nil))⟩

example : validate Cfg.x64 CharType.char sampleList [65535, 7, 0] 44 = .ok true := (C85_validate ⟨rfl, rfl⟩ sample_list_input _ (by decide)).2 sample_number_list
example : sumAll Cfg.x64 CharType.char sampleList 3 44 = .ok (some 65542) := C85_sum_exact ⟨rfl, rfl⟩ sample_list_input (by decide) (by decide) rfl sample_number_list
example : validate Cfg.x64 CharType.char sampleList [65535, 7, 0] 44 = .ok true := by decide +kernel
/-- A wrong number, a missing one, a trailing delimiter, and a number that does not fit. -/
example : validate Cfg.x64 CharType.char sampleList [65535, 8, 0] 44 = .ok false := by decide +kernel
example : validate Cfg.x64 CharType.char sampleList [65535, 7] 44 = .ok false := by decide +kernel
example : validate Cfg.x64 CharType.char [49, 44] [1] 44 = .ok false := by decide +kernel
example : sumAll Cfg.x64 CharType.char [54, 53, 53, 51, 54] 1 44 = .ok none := by decide +kernel

end FastFloat
