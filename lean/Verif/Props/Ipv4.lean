import Verif.Model.Ipv4
import Verif.Spec.Ipv4
import Verif.Props.CompleteInt
/-
# C82: the IPv4 clients read exactly the dotted addresses
-/
set_option autoImplicit false
namespace FastFloat
open NumSpec FloatSpec ApiSpec IntSpec Ipv4Spec Client

/-- A build without the two feature macros. -/
def Plain (c : Cfg) : Prop := c.plusMacro = false ∧ c.wsMacro = false

/-- A text that does not go on with a digit. -/
def NoDecimal (rest : List Nat) : Prop := ∀ u, rest.head? = some u → ¬ (48 ≤ u ∧ u ≤ 57)

theorem digit10 {u : Nat} : IntSpec.IsDigit 10 u ↔ 48 ≤ u ∧ u ≤ 57 := by
  unfold IntSpec.IsDigit digit
  split_ifs <;> omega

theorem plain_text {c : Cfg} (h : Plain c) (s : List Nat) : textOf c { base := 10 } s = s := by
  unfold textOf body Cfg.eff effective
  simp only [h.1, h.2]
  rw [if_neg (by decide)]

theorem plain_plus {c : Cfg} (h : Plain c) : plusFlag (c.eff { base := 10 }) = false := by
  unfold Cfg.eff effective
  simp only [h.1, h.2]
  decide

theorem u8_readable {c : Cfg} (h : Plain c) {s ds rest : List Nat} {neg : Bool} :
    Readable false (c.eff { base := 10 }) 10 s neg ds rest ↔
      neg = false ∧ s = ds ++ rest ∧ (∀ u ∈ ds, 48 ≤ u ∧ u ≤ 57) ∧ ds ≠ [] ∧ NoDecimal rest := by
  constructor
  · rintro ⟨_, _, ⟨h1, h2, h3, h4⟩, h5⟩
    rw [plain_plus h] at h1
    have hn : neg = false := by
      cases neg with
      | false => rfl
      | true => exact absurd (h5 rfl) (by simp)
    subst hn
    refine ⟨rfl, ?_, fun u hu => digit10.1 (h2 u hu), h3, fun u hu h => h4 u hu (digit10.2 h)⟩
    simpa [Signed] using h1
  · rintro ⟨rfl, rfl, h2, h3, h4⟩
    exact ⟨by norm_num, by norm_num, ⟨Or.inr (Or.inl ⟨rfl, rfl⟩), fun u hu => digit10.2 (h2 u hu), h3, fun u hu h => h4 u hu (digit10.1 h)⟩, by simp⟩

theorem u8_wf : u8.WF := by decide

theorem u8_call {c : Cfg} (hc : Plain c) {ct : CharType} {s : List Nat} (hin : Input ct s) (r : ApiInt) :
    fromCharsInt c ct u8 s 10 = .ok r ↔
      r.off ≤ s.length ∧ IntCall false (ExactInt 8 false) (c.eff { base := 10 }) 10 s (s.drop r.off) r.ec.code r.value := by
  have := C51_complete_int_partial c u8_wf { base := 10 } hin (Or.inl (by decide)) r
  rw [plain_text hc] at this
  exact this

/-- One octet: `from_chars` for `uint8_t` succeeds exactly on a maximal run of digits that writes a number of at most 255. -/
theorem u8_ok_iff {c : Cfg} (hc : Plain c) {ct : CharType} {s : List Nat} (hin : Input ct s) (off : Nat) (val : Option Int) :
    fromCharsInt c ct u8 s 10 = .ok ⟨off, .ok, val⟩ ↔
      ∃ g rest v, s = g ++ rest ∧ Octet g v ∧ NoDecimal rest ∧ off = g.length ∧ val = some (v : Int) := by
  rw [u8_call hc hin]
  constructor
  · rintro ⟨ho, h⟩
    replace ho : off ≤ s.length := ho
    generalize hr : s.drop off = rest at h
    generalize hcode : Errc.ok.code = code at h
    cases h with
    | @number neg ds _ _ _ hread hres =>
      obtain ⟨rfl, h2, h3, h4, h5⟩ := (u8_readable hc).1 hread
      cases hres with
      | fits hf =>
        refine ⟨ds, rest, value 10 ds, h2, ⟨h3, h4, rfl, ?_⟩, h5, ?_, rfl⟩
        · have := hf.2
          simp [IntSpec.signedValue, maxValue] at this
          omega
        · have e : (s.drop off).length = rest.length := by rw [hr]
          rw [List.length_drop] at e
          rw [h2, List.length_append] at e ho
          omega
      | overflow hf => simp [Errc.code] at hcode
    | invalid hno => simp [Errc.code] at hcode
  · rintro ⟨g, rest, v, rfl, ho, hn, rfl, rfl⟩
    refine ⟨by simp, ?_⟩
    simp only
    rw [List.drop_left]
    have hf : Fits 8 false (IntSpec.signedValue false (value (10 : Int).toNat g)) := by
      have := ho.small
      have hv := ho.value
      have e : (10 : Int).toNat = 10 := rfl
      rw [e, hv]
      simp [Fits, IntSpec.signedValue, minValue, maxValue]
      omega
    have := IntCall.number (number := ExactInt 8 false) ((u8_readable hc).2 ⟨rfl, rfl, ho.digits, ho.nonempty, hn⟩) (.fits hf)
    have e : (10 : Int).toNat = 10 := rfl
    rw [e, ho.value] at this
    exact this

theorem u8_total {c : Cfg} (hc : Plain c) {ct : CharType} {s : List Nat} (hin : Input ct s) : ∃ r, fromCharsInt c ct u8 s 10 = .ok r := by
  obtain ⟨⟨off, ec, v⟩, h, _⟩ := C51_deterministic c u8_wf { base := 10 } hin (Or.inl (by decide))
  rw [plain_text hc] at h
  exact ⟨⟨off, ec, v⟩, (u8_call hc hin _).2 h⟩

/-- `n` octets separated by dots. -/
def Groups : List Nat → List Nat → List Nat → Prop
  | [], _, _ => False
  | [v], s, rest => ∃ g, s = g ++ rest ∧ Octet g v ∧ NoDecimal rest
  | v :: vs, s, rest => ∃ g s', s = g ++ 46 :: s' ∧ Octet g v ∧ Groups vs s' rest

theorem noDecimal_dot (s : List Nat) : NoDecimal (46 :: s) := by
  intro u hu
  simp at hu
  omega

theorem octet_unique {g g' r r' : List Nat} {v v' : Nat} (h : g ++ r = g' ++ r') (hg : Octet g v) (hg' : Octet g' v') (hr : NoDecimal r) (hr' : NoDecimal r') :
    g = g' ∧ r = r' := by
  have key : ∀ (g g' r r' : List Nat), (∀ u ∈ g, 48 ≤ u ∧ u ≤ 57) → (∀ u ∈ g', 48 ≤ u ∧ u ≤ 57) → NoDecimal r → NoDecimal r' → g ++ r = g' ++ r' → g = g' ∧ r = r' := by
    intro g
    induction g with
    | nil =>
      intro g' r r' _ h2 h3 _ h
      cases g' with
      | nil => exact ⟨rfl, h⟩
      | cons x xs =>
        have h' : r = x :: (xs ++ r') := h
        exact absurd (h2 x (by simp)) (h3 x (by rw [h']; rfl))
    | cons y ys ih =>
      intro g' r r' h1 h2 h3 h4 h
      cases g' with
      | nil =>
        have h' : y :: (ys ++ r) = r' := h
        exact absurd (h1 y (by simp)) (h4 y (by rw [← h']; rfl))
      | cons x xs =>
        simp only [List.cons_append, List.cons.injEq] at h
        obtain ⟨e, h⟩ := h
        obtain ⟨a, b⟩ := ih xs r r' (fun u hu => h1 u (by simp [hu])) (fun u hu => h2 u (by simp [hu])) h3 h4 h
        exact ⟨by rw [e, a], b⟩
  exact key g g' r r' hg.digits hg'.digits hr hr' h

/-- How the program adds an octet. -/
def addOctet (a v : Nat) : Nat := a * 2 ^ 8 % 2 ^ 32 ||| v

theorem parseIpLoop_iff {c : Cfg} (hc : Plain c) {ct : CharType} : ∀ (n : Nat) {s : List Nat} (_ : Input ct s) (ip : Nat),
    (∃ o, parseIpLoop c ct (n + 1) s ip = .ok o) ∧
    ∀ (r : Nat) (rest : List Nat), parseIpLoop c ct (n + 1) s ip = .ok (some (r, rest)) ↔
      ∃ vs, vs.length = n + 1 ∧ Groups vs s rest ∧ r = vs.foldl addOctet ip := by
  intro n
  induction n with
  | zero =>
    intro s hin ip
    obtain ⟨⟨off, ec, val⟩, hr⟩ := u8_total hc hin
    by_cases he : ec = .ok
    · subst he
      obtain ⟨g, rest, v, rfl, ho, hn, rfl, rfl⟩ := (u8_ok_iff hc hin _ _).1 hr
      have e : parseIpLoop c ct (0 + 1) (g ++ rest) ip = .ok (some (addOctet ip v, rest)) := by
        simp only [parseIpLoop, bind, Except.bind, hr]
        simp [addOctet]
      refine ⟨⟨_, e⟩, fun r rest' => ?_⟩
      rw [e]
      constructor
      · intro h
        simp only [Except.ok.injEq, Option.some.injEq, Prod.mk.injEq] at h
        obtain ⟨rfl, rfl⟩ := h
        exact ⟨[v], rfl, ⟨g, rfl, ho, hn⟩, rfl⟩
      · rintro ⟨vs, hl, hg, rfl⟩
        match vs, hl, hg with
        | [w], _, ⟨g', h1, h2, h3⟩ =>
          obtain ⟨e1, e2⟩ := octet_unique h1 ho h2 hn h3
          subst e1; subst e2
          have := ho.value.symm.trans h2.value
          subst this
          rfl
    · have e : parseIpLoop c ct (0 + 1) s ip = .ok none := by
        simp only [parseIpLoop, bind, Except.bind, hr]
        simp [he, pure, Except.pure]
      refine ⟨⟨_, e⟩, fun r rest' => ?_⟩
      rw [e]
      constructor
      · intro h; simp at h
      · rintro ⟨vs, hl, hg, rfl⟩
        match vs, hl, hg with
        | [w], _, ⟨g', h1, h2, h3⟩ =>
          have := (u8_ok_iff hc hin _ _).2 ⟨g', rest', w, h1, h2, h3, rfl, rfl⟩
          rw [hr] at this
          simp at this
          exact absurd this.2.1 he
  | succ n ih =>
    intro s hin ip
    obtain ⟨⟨off, ec, val⟩, hr⟩ := u8_total hc hin
    by_cases he : ec = .ok
    · subst he
      obtain ⟨g, rest, v, rfl, ho, hn, rfl, rfl⟩ := (u8_ok_iff hc hin _ _).1 hr
      by_cases hd : ∃ s', rest = 46 :: s'
      · obtain ⟨s', rfl⟩ := hd
        have hin' : Input ct s' := ⟨hin.wf, fun u hu => hin.units u (by simp [hu]), by
          have := hin.len; rw [List.length_append, List.length_cons] at this; omega⟩
        have e : parseIpLoop c ct (n + 1 + 1) (g ++ 46 :: s') ip = parseIpLoop c ct (n + 1) s' (addOctet ip v) := by
          rw [parseIpLoop]
          simp only [bind, Except.bind, hr]
          simp [addOctet]
        obtain ⟨⟨o, t⟩, i⟩ := ih hin' (addOctet ip v)
        refine ⟨⟨o, e.trans t⟩, fun r rest' => ?_⟩
        rw [e, i]
        constructor
        · rintro ⟨vs, hl, hg, rfl⟩
          refine ⟨v :: vs, by simp [hl], ?_, rfl⟩
          match vs, hl, hg with
          | w :: ws, _, hg => exact ⟨g, s', rfl, ho, hg⟩
        · rintro ⟨vs, hl, hg, rfl⟩
          match vs, hl, hg with
          | w :: w' :: ws, hl, ⟨g', t', h1, h2, h3⟩ =>
            obtain ⟨e1, e2⟩ := octet_unique h1 ho h2 hn (noDecimal_dot t')
            subst e1
            simp only [List.cons.injEq, true_and] at e2
            subst e2
            have := ho.value.symm.trans h2.value
            subst this
            exact ⟨w' :: ws, by simpa using hl, h3, List.foldl_cons ..⟩
      · have e : parseIpLoop c ct (n + 1 + 1) (g ++ rest) ip = .ok none := by
          rw [parseIpLoop]
          simp only [bind, Except.bind, hr]
          simp only [ne_eq, not_true_eq_false, if_false, List.drop_left]
          cases rest with
          | nil => simp [pure, Except.pure]
          | cons ch t =>
            have : ch ≠ 46 := fun h => hd ⟨t, by rw [h]⟩
            simp [this, pure, Except.pure]
        refine ⟨⟨_, e⟩, fun r rest' => ?_⟩
        rw [e]
        constructor
        · intro h; simp at h
        · rintro ⟨vs, hl, hg, rfl⟩
          match vs, hl, hg with
          | w :: w' :: ws, hl, ⟨g', t', h1, h2, h3⟩ =>
            obtain ⟨_, e2⟩ := octet_unique h1 ho h2 hn (noDecimal_dot t')
            exact absurd ⟨t', e2⟩ hd
    · have e : parseIpLoop c ct (n + 1 + 1) s ip = .ok none := by
        rw [parseIpLoop]
        simp only [bind, Except.bind, hr]
        simp [he, pure, Except.pure]
      refine ⟨⟨_, e⟩, fun r rest' => ?_⟩
      rw [e]
      constructor
      · intro h; simp at h
      · rintro ⟨vs, hl, hg, rfl⟩
        match vs, hl, hg with
        | w :: w' :: ws, hl, ⟨g', t', h1, h2, h3⟩ =>
          have := (u8_ok_iff hc hin _ _).2 ⟨g', 46 :: t', w, h1, h2, noDecimal_dot t', rfl, rfl⟩
          rw [hr] at this
          simp at this
          exact absurd this.2.1 he

theorem addOctet_eq {a v : Nat} (hv : v ≤ 255) (ha : a < 2 ^ 24) : addOctet a v = a * 2 ^ 8 + v := by
  unfold addOctet
  rw [Nat.mod_eq_of_lt (by omega), Nat.mul_comm]
  exact (Nat.two_pow_add_eq_or_of_lt (by omega) a).symm

theorem fold_octets {a b d e : Nat} (ha : a ≤ 255) (hb : b ≤ 255) (hd : d ≤ 255) (he : e ≤ 255) : [a, b, d, e].foldl addOctet 0 = number a b d e := by
  simp only [List.foldl_cons, List.foldl_nil]
  rw [addOctet_eq ha (by omega), addOctet_eq hb (by omega), addOctet_eq hd (by omega), addOctet_eq he (by omega)]
  unfold number
  omega

/-- **C82**: `ipv4_string_to_uint32` / `simple_parse_ip_line` succeeds with the address `ip` and stops in front of `rest` exactly if the text is four numbers of at
most 255 with dots between them, followed by `rest`. -/
theorem C82_ipv4 {c : Cfg} (hc : Plain c) {ct : CharType} {s : List Nat} (hin : Input ct s) (ip : Nat) (rest : List Nat) :
    parseIp c ct s = .ok (some (ip, rest)) ↔ ∃ a b d e, Address s a b d e rest ∧ ip = number a b d e := by
  unfold parseIp
  rw [(parseIpLoop_iff hc 3 hin 0).2]
  constructor
  · rintro ⟨vs, hl, hg, rfl⟩
    match vs, hl, hg with
    | [a, b, d, e], _, ⟨ga, s1, h1, oa, gb, s2, h2, ob, gd, s3, h3, od, ge, h4, oe, hn⟩ =>
      refine ⟨a, b, d, e, ⟨ga, gb, gd, ge, by rw [h1, h2, h3, h4], oa, ob, od, oe, hn⟩, fold_octets oa.small ob.small od.small oe.small⟩
  · rintro ⟨a, b, d, e, ⟨ga, gb, gd, ge, hs, oa, ob, od, oe, hn⟩, rfl⟩
    exact ⟨[a, b, d, e], rfl, ⟨ga, _, hs, oa, gb, _, rfl, ob, gd, _, rfl, od, ge, rfl, oe, hn⟩, (fold_octets oa.small ob.small od.small oe.small).symm⟩

/-- **C82**: on every other text it fails cleanly (the test throws, the benchmark returns `{false, 0}`). -/
theorem C82_ipv4_rejects {c : Cfg} (hc : Plain c) {ct : CharType} {s : List Nat} (hin : Input ct s) (h : ¬ ∃ a b d e rest, Address s a b d e rest) :
    parseIp c ct s = .ok none := by
  obtain ⟨⟨o, ho⟩, _⟩ := parseIpLoop_iff (ct := ct) hc 3 hin 0
  cases o with
  | none => exact ho
  | some p =>
    obtain ⟨ip, rest⟩ := p
    obtain ⟨a, b, d, e, ha, _⟩ := (C82_ipv4 hc hin ip rest).1 ho
    exact absurd ⟨a, b, d, e, rest, ha⟩ h

theorem u8DigitsLoop_render : ∀ n : Nat, 0 < n → (u8DigitsLoop n).reverse = render 10 (fun _ => false) n := by
  intro n
  induction n using Nat.strong_induction_on with
  | _ n ih =>
    intro hn
    rw [u8DigitsLoop, dif_pos hn, render, List.reverse_cons]
    by_cases h : 10 ≤ n
    · rw [dif_pos ⟨by omega, h⟩, ih (n / 10) (by omega) (by omega)]
      have : n % 10 < 10 := by omega
      simp [digitChar, this]
    · rw [dif_neg (by omega)]
      have h0 : n / 10 = 0 := by omega
      rw [h0, u8DigitsLoop, dif_neg (by omega)]
      have : n % 10 = n := by omega
      simp [digitChar, this]
      omega

theorem u8ToChars_render (n : Nat) : u8ToChars n = render 10 (fun _ => false) n := by
  unfold u8ToChars
  split_ifs with h
  · subst h; rw [render]; simp [digitChar]
  · exact u8DigitsLoop_render n (by omega)

theorem octet_render {v : Nat} (h : v ≤ 255) : Octet (render 10 (fun _ => false) v) v := by
  obtain ⟨h1, h2, h3⟩ := render_facts (b := 10) (by omega) (by omega) (fun _ => false) v
  exact ⟨fun u hu => digit10.1 (h2 u hu).1, h3, h1, h⟩

/-- **C82**: `uint32_to_ipv4_string` writes the usual text of the address. -/
theorem C82_ipv4_print (ip : Nat) (h : ip < 2 ^ 32) :
    ∃ a b d e, a ≤ 255 ∧ b ≤ 255 ∧ d ≤ 255 ∧ e ≤ 255 ∧ ip = number a b d e ∧ ipv4Buffer ip = text a b d e ++ [0] := by
  refine ⟨ip / 2 ^ 24 % 256, ip / 2 ^ 16 % 256, ip / 2 ^ 8 % 256, ip % 256, by omega, by omega, by omega, by omega, ?_, ?_⟩
  · unfold number; omega
  · simp [ipv4Buffer, octets, printLoop, u8ToChars_render, text]

theorem render_length {v : Nat} (h : v ≤ 255) : (render 10 (fun _ => false) v).length ≤ 3 := by
  rw [render]
  split_ifs with h1
  · rw [render]
    split_ifs with h2
    · rw [render]
      rw [dif_neg (by omega)]
      simp
    · simp
  · simp

/-- **C82**: the text and its terminator fit in the 16 bytes of `buffer`. -/
theorem C82_ipv4_buffer (ip : Nat) (h : ip < 2 ^ 32) : (ipv4Buffer ip).length ≤ 16 := by
  obtain ⟨a, b, d, e, ha, hb, hd, he, _, ht⟩ := C82_ipv4_print ip h
  rw [ht]
  unfold text
  have := render_length ha
  have := render_length hb
  have := render_length hd
  have := render_length he
  simp
  omega

/-- **C82**: every one of the 2^32 addresses is read back, whatever follows that is not a digit. -/
theorem C82_ipv4_round_trip {c : Cfg} (hc : Plain c) {ct : CharType} {ip : Nat} (h : ip < 2 ^ 32) {rest : List Nat}
    (hr : ∀ u, rest.head? = some u → ¬ (48 ≤ u ∧ u ≤ 57)) (hin : Input ct ((ipv4Buffer ip).dropLast ++ rest)) :
    parseIp c ct ((ipv4Buffer ip).dropLast ++ rest) = .ok (some (ip, rest)) := by
  obtain ⟨a, b, d, e, ha, hb, hd, he, hn, ht⟩ := C82_ipv4_print ip h
  rw [ht, List.dropLast_concat] at hin ⊢
  refine (C82_ipv4 hc hin ip rest).2 ⟨a, b, d, e, ⟨_, _, _, _, ?_, octet_render ha, octet_render hb, octet_render hd, octet_render he, hr⟩, hn⟩
  simp [text]

theorem seekDots_digits {g : List Nat} (hg : ∀ u ∈ g, 48 ≤ u ∧ u ≤ 57) (t : List Nat) (n : Nat) : seekDots (g ++ t) n = seekDots t n := by
  induction g with
  | nil => rfl
  | cons x xs ih =>
    have := hg x (by simp)
    rw [List.cons_append, seekDots, if_neg (by omega)]
    exact ih (fun u hu => hg u (by simp [hu]))

theorem seekDigits_digits {g : List Nat} (hg : ∀ u ∈ g, 48 ≤ u ∧ u ≤ 57) {t : List Nat} (ht : NoDecimal t) : seekDigits (g ++ t) = t := by
  induction g with
  | nil =>
    cases t with
    | nil => rfl
    | cons x xs =>
      have := ht x rfl
      rw [List.nil_append, seekDigits, if_neg (by omega)]
  | cons x xs ih =>
    have := hg x (by simp)
    rw [List.cons_append, seekDigits, if_pos (by omega)]
    exact ih (fun u hu => hg u (by simp [hu]))

/-- **C82**: `seek_ip_end` finds where the parser stops. -/
theorem C82_seek {c : Cfg} (hc : Plain c) {ct : CharType} {s : List Nat} (hin : Input ct s) {ip : Nat} {rest : List Nat}
    (h : parseIp c ct s = .ok (some (ip, rest))) : seekIpEnd s = rest := by
  obtain ⟨a, b, d, e, ⟨ga, gb, gd, ge, rfl, oa, ob, od, oe, hn⟩, _⟩ := (C82_ipv4 hc hin ip rest).1 h
  unfold seekIpEnd
  rw [seekDots_digits oa.digits, seekDots, if_pos rfl, if_neg (by omega), seekDots_digits ob.digits, seekDots, if_pos rfl, if_neg (by omega),
    seekDots_digits od.digits, seekDots, if_pos rfl, if_pos (by omega)]
  exact seekDigits_digits oe.digits hn

/-! ### Concrete cases -/

/-- "192.168.000.1 x" -/
def sampleIp : List Nat := [49, 57, 50, 46, 49, 54, 56, 46, 48, 48, 48, 46, 49, 32, 120]

theorem sample_ip_input : Input CharType.char sampleIp := input_of_bytes (by decide) (by decide)

/-- Leading zeros are allowed, and what follows is left alone. -/
example : parseIp Cfg.x64 CharType.char sampleIp = .ok (some (3232235521, [32, 120])) :=
  (C82_ipv4 ⟨rfl, rfl⟩ sample_ip_input _ _).2
    ⟨192, 168, 0, 1, ⟨[49, 57, 50], [49, 54, 56], [48, 48, 48], [49], rfl, ⟨by decide, by decide, by decide, by decide⟩, ⟨by decide, by decide, by decide, by decide⟩,
      ⟨by decide, by decide, by decide, by decide⟩, ⟨by decide, by decide, by decide, by decide⟩, by simp⟩, rfl⟩

/-- "1.2.3.256" is rejected. -/
example : parseIp Cfg.x64 CharType.char [49, 46, 50, 46, 51, 46, 50, 53, 54] = .ok none := by decide +kernel
/-- "1.2.3" is rejected. -/
example : parseIp Cfg.x64 CharType.char [49, 46, 50, 46, 51] = .ok none := by decide +kernel
example : parseIp Cfg.x64 CharType.char sampleIp = .ok (some (3232235521, [32, 120])) := by decide +kernel
example : seekIpEnd sampleIp = [32, 120] := by decide

/-- The longest address fills the buffer of 16 bytes. -/
example : (ipv4Buffer 4294967295).length = 16 := by
  simp [ipv4Buffer, octets, printLoop, u8ToChars, u8DigitsLoop]

end FastFloat
