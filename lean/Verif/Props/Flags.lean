import Verif.Props.Syntax
import Verif.Props.Rounding
/-
# C16-C21: JSON, Fortran, leading plus, white space, infinities and NaN
-/
set_option linter.unusedSimpArgs false
namespace FastFloat
open NumSpec FloatSpec ApiSpec

/-! ### C16 -/

/-- **C16**: with a JSON format (and fixed, as in `chars_format::json`), let the text be an optional minus sign, a maximal digit run
`int`, and `after`.  A number is accepted if and only if `int` is nonempty and has no superfluous leading zero, and a decimal
point right after it is followed by a digit. -/
theorem C16_json_acceptance (c : Cfg) {ct : CharType} (T : FloatTy) {s : List Nat} (opt : Options) (hin : Input ct s)
    (hdp : ¬ IsDigit opt.decimalPoint) (hj : (c.eff opt).testBit 5 = true) (hf : (c.eff opt).testBit 2 = true)
    {sg int after : List Nat} (ht : textOf c opt s = sg ++ int ++ after)
    (hsg : sg = [45] ∨ (sg = [] ∧ ∀ t, textOf c opt s ≠ 45 :: t)) (hint : ∀ u ∈ int, IsDigit u)
    (hafter : ∀ u t, after = u :: t → ¬ IsDigit u) :
    (∃ r, fromCharsFloat c ct T.fmt s opt = .ok r ∧ r.ec ≠ .invalidArgument ∧ ¬ InfNanText c opt s) ↔
      int ≠ [] ∧ (∀ ds, int = 48 :: ds → ds = []) ∧ (∀ q, after = opt.decimalPoint :: q → ∃ d q', q = d :: q' ∧ IsDigit d) := by
  have hsign : refSign (grammar c opt) (textOf c opt s) = (sg.head?, int ++ after) := by
    unfold refSign
    have hg : (grammar c opt).json = true := hj
    rcases hsg with rfl | ⟨rfl, hne⟩
    · rw [ht]; exact if_pos rfl
    · rw [if_neg, if_neg]
      · rw [ht]; rfl
      · rw [hg]; simp
      · intro h
        obtain ⟨t, h⟩ := headIs_iff.1 h
        exact hne t h
  have hrun := run_digits_append (s := after) hint
  rw [(run_of_noDigit hafter).1, (run_of_noDigit hafter).2, List.append_nil] at hrun
  have hscan : (∃ x, scanNumeral (grammar c opt) (textOf c opt s) = some x) ↔
      mantOK (grammar c opt) int (refFrac (grammar c opt) after).1 = true := by
    unfold scanNumeral
    simp only [hsign, hrun.1, hrun.2]
    have hfx : (grammar c opt).fixed = true := hf
    cases hm : mantOK (grammar c opt) int (refFrac (grammar c opt) after).1
    · simp
    · simp only [if_true]
      have : ∃ y, refExp (grammar c opt) (refFrac (grammar c opt) after).2 = some y := by
        unfold refExp
        rw [hfx]
        split
        · rw [if_neg (by simp)]; exact ⟨_, rfl⟩
        · split
          · exact ⟨_, rfl⟩
          · exact ⟨_, rfl⟩
      obtain ⟨y, hy⟩ := this
      rw [hy]; simp
  have hmant : mantOK (grammar c opt) int (refFrac (grammar c opt) after).1 = true ↔
      int ≠ [] ∧ (∀ ds, int = 48 :: ds → ds = []) ∧ (∀ q, after = opt.decimalPoint :: q → ∃ d q', q = d :: q' ∧ IsDigit d) := by
    unfold mantOK
    rw [if_pos (show (grammar c opt).json = true from hj)]
    simp only [Bool.and_eq_true, Bool.not_eq_true', and_assoc]
    refine and_congr ?_ (and_congr ?_ ?_)
    · cases int <;> simp
    · cases int with
      | nil => simp [headIs]
      | cons a t =>
        cases t with
        | nil => simp [headIs]
        | cons b t => simp [headIs]
    · have hgp : (grammar c opt).point = opt.decimalPoint := rfl
      unfold refFrac
      rw [hgp]
      by_cases hh : headIs after opt.decimalPoint = true
      · obtain ⟨q, rfl⟩ := headIs_iff.1 hh
        simp only [hh, if_true, List.drop_succ_cons, List.drop_zero]
        constructor
        · intro h q' hq'
          cases hq'
          cases q with
          | nil => simp [run] at h
          | cons d q' =>
            refine ⟨d, q', rfl, ?_⟩
            by_contra hd
            rw [(run_of_noDigit (s := d :: q') (by intro u t h; cases h; exact hd)).1] at h
            simp at h
        · intro h
          obtain ⟨d, q', rfl, hd⟩ := h q rfl
          rw [(run_cons_pos (decide_eq_true hd)).1]
          rfl
      · simp only [hh]
        constructor
        · intro _ q hq
          rw [hq] at hh; simp [headIs] at hh
        · intro _; rfl
  rw [← hmant, ← hscan]
  constructor
  · rintro ⟨r, h, ha, hi⟩
    obtain ⟨rest, ho, hoff⟩ := call_outcome hin hdp h
    obtain ⟨ec, hec⟩ : ∃ ec, r.ec = ec := ⟨_, rfl⟩
    obtain ⟨v, hv⟩ : ∃ v, r.value = v := ⟨_, rfl⟩
    rw [hec] at ha ho
    rw [hv] at ho
    cases ho with
    | num hs hno => exact ⟨_, hs⟩
    | inf hn ht => exact absurd (Or.inl ⟨_, _, ht⟩) hi
    | nan hn ht => exact absurd (Or.inr ⟨_, _, ht⟩) hi
    | bad hs hb => exact absurd rfl ha
  · rintro ⟨⟨n, rest⟩, hs⟩
    obtain ⟨k, b, ec, h3, h4⟩ := (float_cases' c T opt hin hdp).1 n rest hs
    refine ⟨_, h3, ?_, numeral_not_infnan' (scan_sound hs).1 (scan_sound hs).2⟩
    rcases h4.ecs with h | h <;> simp [h]

/-- `-0.5` is JSON, `01` is not. -/
example : (∃ r, fromCharsFloat Cfg.x64 CharType.char binary64 [45, 48, 46, 53] { format := 53 } = .ok r ∧ r.ec ≠ .invalidArgument ∧ ¬ InfNanText Cfg.x64 { format := 53 } [45, 48, 46, 53]) ∧
    ¬ (∃ r, fromCharsFloat Cfg.x64 CharType.char binary64 [48, 49] { format := 53 } = .ok r ∧ r.ec ≠ .invalidArgument ∧ ¬ InfNanText Cfg.x64 { format := 53 } [48, 49]) := by
  constructor
  · refine (C16_json_acceptance Cfg.x64 .double { format := 53 } (input_of_bytes (by decide) (by decide)) sample_point.1 (by decide) (by decide)
      (sg := [45]) (int := [48]) (after := [46, 53]) rfl (Or.inl rfl) (by unfold IsDigit; decide) (by intro u t h; cases h; unfold IsDigit; omega)).2 ⟨by decide, ?_, ?_⟩
    · intro ds h; exact (List.cons.inj h).2.symm
    · intro q h; exact ⟨53, [], (List.cons.inj h).2.symm, by unfold IsDigit; omega⟩
  · intro h
    have := (C16_json_acceptance Cfg.x64 .double { format := 53 } (input_of_bytes (by decide) (by decide)) sample_point.1 (by decide) (by decide)
      (sg := []) (int := [48, 49]) (after := []) rfl (Or.inr ⟨rfl, by intro t h; cases h⟩) (by unfold IsDigit; decide) (by intro u t h; cases h)).1 h
    exact absurd (this.2.1 [49] rfl) (by decide)

/-- `-0.5` is accepted, `01`, `1.` and `.5` are not. -/
example : fromCharsFloat Cfg.x64 CharType.char binary64 [45, 48, 46, 53] { format := 53 } = .ok ⟨4, .ok, some 0xBFE0000000000000⟩ := by decide +kernel
example : fromCharsFloat Cfg.x64 CharType.char binary64 [48, 49] { format := 53 } = .ok ⟨0, .invalidArgument, none⟩ := by decide +kernel
example : fromCharsFloat Cfg.x64 CharType.char binary64 [49, 46] { format := 53 } = .ok ⟨0, .invalidArgument, none⟩ := by decide +kernel
example : fromCharsFloat Cfg.x64 CharType.char binary64 [46, 53] { format := 53 } = .ok ⟨0, .invalidArgument, none⟩ := by decide +kernel

/-- **C16**: with a JSON format without the Fortran bit, whatever number is accepted, the characters before the returned pointer are (skipped
white space and) an RFC 8259 number. -/
theorem C16_json_text (c : Cfg) {ct : CharType} (T : FloatTy) {s : List Nat} (opt : Options) (hin : Input ct s)
    (hp : (grammar c opt).PointOK) (hj : (c.eff opt).testBit 5 = true) (hfo : (c.eff opt).testBit 6 = false)
    {r : ApiFloat} (h : fromCharsFloat c ct T.fmt s opt = .ok r) (ha : r.ec ≠ .invalidArgument) (hi : ¬ InfNanText c opt s) :
    ∃ ws t, s.take r.off = ws ++ t ∧ (∀ u ∈ ws, ApiSpec.isSpace u = true) ∧ IsJsonNumber opt.decimalPoint t := by
  obtain ⟨ws, n, rest, h3, h4, h5, h6, h7⟩ := C12_longest_numeral c T opt hin hp h ha hi
  refine ⟨ws, _, h7, h4, ?_⟩
  obtain ⟨w1, w2, w3, w4⟩ := h6.1
  rw [if_pos (show (grammar c opt).json = true from hj)] at w3
  refine ⟨_, _, _, _, rfl, ?_, fun u hu => w2 u (by simp [Numeral.digits, hu]), w3.1, ?_, ?_, ?_⟩
  · rcases w1 with h | h | ⟨_, _, h⟩
    · rw [h]; exact Or.inl rfl
    · rw [h]; exact Or.inr rfl
    · change (c.eff opt).testBit 5 = false at h; rw [hj] at h; cases h
  · by_cases hz : ∃ ds, n.int = 48 :: ds
    · obtain ⟨ds, hz⟩ := hz
      have := w3.2.1 ds hz
      rw [this] at hz
      exact Or.inl hz
    · exact Or.inr (fun ds h => hz ⟨ds, h⟩)
  · cases hf : n.frac with
    | none => exact Or.inl rfl
    | some ds =>
      refine Or.inr ⟨ds, rfl, ?_, fun u hu => w2 u (by simp [Numeral.digits, hf, hu])⟩
      rintro rfl
      exact w3.2.2 hf
  · cases he : n.exp with
    | none => exact Or.inl rfl
    | some e =>
      rw [he] at w4
      obtain ⟨e1, e2, e3, e4⟩ := w4
      right
      have hm : ∃ m, e.marker = some m ∧ (m = 101 ∨ m = 69) := by
        rcases e4 with ⟨_, h⟩ | ⟨h, _⟩ | ⟨h, _⟩
        · rcases h with h | h
          · exact ⟨_, h, Or.inl rfl⟩
          · exact ⟨_, h, Or.inr rfl⟩
        · change (c.eff opt).testBit 6 = true at h; rw [hfo] at h; cases h
        · change (c.eff opt).testBit 6 = true at h; rw [hfo] at h; cases h
      obtain ⟨m, hm1, hm2⟩ := hm
      refine ⟨m, e.sign.toList, e.digits, ?_, hm2, ?_, e1, e2⟩
      · simp [Numeral.expText, Exponent.text, hm1]
      · rcases e3 with h | h | h <;> rw [h] <;> simp

/-- `1e2` with `chars_format::json`. -/
example : ∃ ws t, hundredAText.take 3 = ws ++ t ∧ (∀ u ∈ ws, ApiSpec.isSpace u = true) ∧ IsJsonNumber 46 t :=
  C16_json_text Cfg.x64 .double { format := 53 } hundredA_input sample_point (by decide) (by decide) (r := ⟨3, .ok, some 4636737291354636288⟩)
    (by decide +kernel) (by decide)
    (numeral_not_infnan' (c := Cfg.x64) (opt := { format := 53 }) (s := hundredAText) (n := hundredANumeral) (rest := [])
      (scan_sound (g := grammar Cfg.x64 { format := 53 }) (s := hundredAText) (rest := []) (by decide +kernel)).1 rfl)

/-! ### C17 -/

/-- **C17**: with the Fortran and scientific bits set (as in `chars_format::fortran`; not JSON), a significand followed by `e`, `E`, `d` or `D`,
an optional sign and digits, or followed directly by a sign and digits, is accepted as a whole, and the value stored is the significand scaled
by that power of ten, correctly rounded. -/
theorem C17_fortran_exponents (c : Cfg) {ct : CharType} (T : FloatTy) {s : List Nat} (opt : Options) (hin : Input ct s)
    (hp : (grammar c opt).PointOK) (hfo : (c.eff opt).testBit 6 = true) (hsc : (c.eff opt).testBit 0 = true) (hj : (c.eff opt).testBit 5 = false)
    {sign : Option Nat} {int frac point marker ds rest : List Nat} {esign : Option Nat}
    (hpt : point = [opt.decimalPoint] ∨ (point = [] ∧ frac = [])) (h1 : sign = none ∨ sign = some 45) (h2 : ∀ u ∈ int ++ frac, IsDigit u) (h3 : int ++ frac ≠ [])
    (h4 : marker = [101] ∨ marker = [69] ∨ marker = [100] ∨ marker = [68] ∨ (marker = [] ∧ esign ≠ none))
    (h5 : esign = none ∨ esign = some 43 ∨ esign = some 45) (h6 : ds ≠ []) (h7 : ∀ u ∈ ds, IsDigit u) (h8 : ∀ u t, rest = u :: t → ¬ IsDigit u)
    (hlen : (int ++ frac).length + 400 ≤ 2 ^ 28)
    (hx : T = .float16 → ¬ HalfException 16
      ((digitsVal (int ++ frac) : ℚ) * (10 : ℚ) ^ ((if esign = some 45 then -(digitsVal ds : Int) else digitsVal ds) - (frac.length : Int))))
    (ht : textOf c opt s = sign.toList ++ int ++ (point ++ frac) ++ (marker ++ esign.toList ++ ds) ++ rest) :
    ∃ r b, fromCharsFloat c ct T.fmt s opt = .ok r ∧ r.ec ≠ .invalidArgument ∧ s.drop r.off = rest ∧ r.value = some b ∧
      T.spec.RoundsToBits (sign == some 45)
        ((digitsVal (int ++ frac) : ℚ) * (10 : ℚ) ^ ((if esign = some 45 then -(digitsVal ds : Int) else digitsVal ds) - (frac.length : Int))) b := by
  obtain ⟨n, hn⟩ : ∃ n : Numeral, n = ⟨sign, int, if point = [] then none else some frac, some ⟨marker.head?, esign, ds⟩⟩ := ⟨_, rfl⟩
  have hdig : n.digits = int ++ frac := by
    subst hn
    rcases hpt with rfl | ⟨rfl, rfl⟩ <;> simp [Numeral.digits]
  have hfl : (n.frac.getD []).length = frac.length := by
    subst hn
    rcases hpt with rfl | ⟨rfl, rfl⟩ <;> simp
  have hmk : marker.head?.toList = marker := by rcases h4 with rfl | rfl | rfl | rfl | ⟨rfl, _⟩ <;> rfl
  have hwf : n.WF (grammar c opt) := by
    refine ⟨?_, by rw [hdig]; exact h2, ?_, ?_⟩
    · subst hn
      rcases h1 with h | h
      · exact Or.inl h
      · exact Or.inr (Or.inl h)
    · rw [if_neg (by show ¬ ((c.eff opt).testBit 5 = true); rw [hj]; simp)]
      rw [hdig]; exact h3
    · subst hn
      refine ⟨h6, h7, h5, ?_⟩
      rcases h4 with rfl | rfl | rfl | rfl | ⟨rfl, hs⟩
      · exact Or.inl ⟨hsc, Or.inl rfl⟩
      · exact Or.inl ⟨hsc, Or.inr rfl⟩
      · exact Or.inr (Or.inl ⟨hfo, Or.inl rfl⟩)
      · exact Or.inr (Or.inl ⟨hfo, Or.inr rfl⟩)
      · exact Or.inr (Or.inr ⟨hfo, rfl, hs⟩)
  have htext : textOf c opt s = n.text (grammar c opt).point ++ rest := by
    rw [ht]; subst hn
    simp only [Numeral.text, Numeral.expText, Exponent.text, hmk]
    rcases hpt with rfl | ⟨rfl, rfl⟩
    · rfl
    · rfl
  have hs : scanNumeral (grammar c opt) (textOf c opt s) = some (n, rest) := by
    rw [htext]; exact scan_text hp hwf (Or.inl ⟨by subst hn; simp, h8⟩)
  obtain ⟨r, g1, g2, g3⟩ := number_pointer c T hin hp hs
  have hacc : AcceptsNumber c ct T s opt n rest r := ⟨g1, g2, scan_longest hp hs⟩
  obtain ⟨k, b, _, hv, hco⟩ := accepts_exact hin hp hacc (Or.inl (by rw [hdig]; exact hlen))
  refine ⟨r, b, g1, g2, g3, hv, ?_⟩
  have hval : n.value =
      (digitsVal (int ++ frac) : ℚ) * (10 : ℚ) ^ ((if esign = some 45 then -(digitsVal ds : Int) else digitsVal ds) - (frac.length : Int)) := by
    unfold Numeral.value
    rw [hdig, hfl]
    subst hn
    rfl
  rw [← hval] at hx ⊢
  have := hco.roundsTo' hx
  rw [show n.neg = (sign == some 45) by subst hn; rfl] at this
  exact this

/-- `1.5+3` in a Fortran format. -/
example : ∃ r b, fromCharsFloat Cfg.x64 CharType.char binary64 [49, 46, 53, 43, 51] { format := 69 } = .ok r ∧ r.ec ≠ .invalidArgument ∧
    [49, 46, 53, 43, 51].drop r.off = [] ∧ r.value = some b ∧ double.RoundsToBits false ((15 : Nat) * (10 : ℚ) ^ ((3 : Int) - 1)) b :=
  C17_fortran_exponents Cfg.x64 .double { format := 69 } (input_of_bytes (by decide) (by decide)) sample_point (by decide) (by decide) (by decide)
    (sign := none) (int := [49]) (frac := [53]) (point := [46]) (marker := []) (ds := [51]) (rest := []) (esign := some 43) (Or.inl rfl) (Or.inl rfl)
    (by unfold IsDigit; decide) (by decide) (by simp) (by simp) (by decide) (by unfold IsDigit; decide) (by intro u t h; cases h) (by decide) (fun h => by cases h) rfl

/-- `1.5d3` and `1.5+3`. -/
example : fromCharsFloat Cfg.x64 CharType.char binary64 [49, 46, 53, 100, 51] { format := 69 } = .ok ⟨5, .ok, some 0x4097700000000000⟩ := by decide +kernel
example : fromCharsFloat Cfg.x64 CharType.char binary64 [49, 46, 53, 43, 51] { format := 69 } = .ok ⟨5, .ok, some 0x4097700000000000⟩ := by decide +kernel

/-- **C17**: without the Fortran bit a consumed exponent starts with `e` or `E`. -/
theorem C17_no_fortran (c : Cfg) {ct : CharType} {T : FloatTy} {s : List Nat} {opt : Options} (hin : Input ct s)
    (hp : (grammar c opt).PointOK) {r : ApiFloat} (h : fromCharsFloat c ct T.fmt s opt = .ok r) (ha : r.ec ≠ .invalidArgument)
    (hi : ¬ InfNanText c opt s) (h1 : (c.eff opt).testBit 6 = false) :
    ∃ (n : Numeral) (rest : List Nat), Consumed c opt s r.off n rest ∧
      ∀ e, n.exp = some e → ∃ m, (m = 101 ∨ m = 69) ∧ e.marker = some m := by
  obtain ⟨ws, n, rest, h3, h4, h5, h6, h7⟩ := C12_longest_numeral c T opt hin hp h ha hi
  refine ⟨n, rest, ⟨ws, h3, h4, h5, h7⟩, ?_⟩
  intro e he
  have := h6.1.2.2.2
  rw [he] at this
  rcases this.2.2.2 with ⟨_, h | h⟩ | ⟨h, _⟩ | ⟨h, _⟩
  · exact ⟨_, Or.inl rfl, h⟩
  · exact ⟨_, Or.inr rfl, h⟩
  · change (c.eff opt).testBit 6 = true at h; rw [h1] at h; cases h
  · change (c.eff opt).testBit 6 = true at h; rw [h1] at h; cases h

/-- `-7e-46` -/
example : ∃ (n : Numeral) (rest : List Nat), Consumed Cfg.x64 {} underText 6 n rest ∧ ∀ e, n.exp = some e → ∃ m, (m = 101 ∨ m = 69) ∧ e.marker = some m :=
  C17_no_fortran Cfg.x64 (T := .float) under_input sample_point under_accepts.result under_accepts.accepted
    (numeral_not_infnan' under_accepts.longest.1 under_accepts.longest.2.1) (by decide)

example : fromCharsFloat Cfg.x64 CharType.char binary64 [49, 46, 53, 43, 51] {} = .ok ⟨3, .ok, some 0x3FF8000000000000⟩ := by decide +kernel

/-! ### C18 -/

theorem scan_nosign {g : Rules} {t : List Nat} (h1 : refSign g t = (none, t)) {a : Nat} {u : List Nat} (ht : t = a :: u) (ha : ¬ IsDigit a) (hp : a ≠ g.point) :
    scanNumeral g t = none := by
  have hnd : NoDigit t := by intro x y h; rw [ht] at h; cases h; exact ha
  unfold scanNumeral
  simp only [h1, (run_of_noDigit hnd).1, (run_of_noDigit hnd).2]
  have hf : refFrac g t = (none, t) := by
    unfold refFrac
    exact if_neg (by rw [ht]; simp [headIs, hp])
  rw [hf]
  rw [if_neg]
  unfold mantOK
  cases g.json <;> simp

theorem startsWith_head {w : Nat} {ws s t : List Nat} (h : StartsWith (w :: ws) s t) : ∃ a u, s = a :: u ∧ lower a = w := by
  obtain ⟨v, rfl, hv⟩ := h
  cases v with
  | nil => simp at hv
  | cons a v => simp at hv; exact ⟨a, v ++ t, rfl, hv.1⟩

theorem no_inf_head {plus : Bool} {a : Nat} {u : List Nat} (h45 : a ≠ 45) (h43 : plus = true → a ≠ 43) (h1 : lower a ≠ 105) :
    ¬ ∃ neg rest, InfText plus (a :: u) neg rest := by
  rintro ⟨neg, rest, t, r, hs, hst, _⟩
  obtain ⟨b, q, rfl, hb⟩ := startsWith_head hst
  rcases hs with ⟨_, h⟩ | ⟨_, h⟩ | ⟨_, hp, h⟩ <;> cases h
  · exact h45 rfl
  · exact h1 hb
  · exact h43 hp rfl

theorem no_nan_head {plus : Bool} {a : Nat} {u : List Nat} (h45 : a ≠ 45) (h43 : plus = true → a ≠ 43) (h1 : lower a ≠ 110) :
    ¬ ∃ neg rest, NanText plus (a :: u) neg rest := by
  rintro ⟨neg, rest, t, r, hs, hst, _⟩
  obtain ⟨b, q, rfl, hb⟩ := startsWith_head hst
  rcases hs with ⟨_, h⟩ | ⟨_, h⟩ | ⟨_, hp, h⟩ <;> cases h
  · exact h45 rfl
  · exact h1 hb
  · exact h43 hp rfl

/-- **C18**: without `allow_leading_plus`, a text that starts with `+` is rejected. -/
theorem C18_plus_rejected (c : Cfg) {ct : CharType} (T : FloatTy) {s : List Nat} (opt : Options) (hin : Input ct s)
    (hp : (grammar c opt).PointOK) (hf : plusFlag (c.eff opt) = false) {u : List Nat} (ht : textOf c opt s = 43 :: u) :
    fromCharsFloat c ct T.fmt s opt = .ok ⟨s.length - (textOf c opt s).length, .invalidArgument, none⟩ := by
  apply Outcome.call hin hp.1
  apply Outcome.bad
  · change scanNumeral (grammar c opt) _ = none
    have hg : (grammar c opt).plus = false := hf
    refine scan_nosign ?_ ht (by unfold IsDigit; omega) (Ne.symm hp.2.1)
    rw [ht]; unfold refSign; rw [hg]; rfl
  · rw [ht, hf]
    exact Or.inr ⟨no_inf_head (by decide) (fun h => by cases h) (by decide), no_nan_head (by decide) (fun h => by cases h) (by decide)⟩

example : fromCharsFloat Cfg.x64 CharType.char binary64 [43, 49] {} = .ok ⟨0, .invalidArgument, none⟩ :=
  C18_plus_rejected Cfg.x64 .double {} (input_of_bytes (by decide) (by decide)) sample_point (by decide) (u := [49]) rfl

/-- **C18**: with a JSON format a text that starts with `+` is never accepted as a number, whatever the flags. -/
theorem C18_plus_json (c : Cfg) {ct : CharType} (T : FloatTy) {s : List Nat} (opt : Options) (hin : Input ct s)
    (hp : (grammar c opt).PointOK) (hj : (c.eff opt).testBit 5 = true) {u : List Nat} (ht : textOf c opt s = 43 :: u) (hi : ¬ InfNanText c opt s) :
    fromCharsFloat c ct T.fmt s opt = .ok ⟨s.length - (textOf c opt s).length, .invalidArgument, none⟩ := by
  apply Outcome.call hin hp.1
  apply Outcome.bad
  · change scanNumeral (grammar c opt) _ = none
    have hg : (grammar c opt).json = true := hj
    refine scan_nosign ?_ ht (by unfold IsDigit; omega) (Ne.symm hp.2.1)
    rw [ht]; unfold refSign; rw [hg]; simp [headIs]
  · exact Or.inr ⟨fun h => hi (Or.inl h), fun h => hi (Or.inr h)⟩

/-- JSON with `allow_leading_plus`. -/
example : fromCharsFloat Cfg.x64 CharType.char binary64 [43, 49] { format := 181 } = .ok ⟨0, .invalidArgument, none⟩ :=
  C18_plus_json Cfg.x64 .double { format := 181 } (input_of_bytes (by decide) (by decide)) sample_point (by decide) (u := [49]) rfl
    (short_not_infnan (by decide))

theorem signed_plus {s u : List Nat} {neg : Bool} (h45 : ∀ u, s ≠ 45 :: u) (h43 : ∀ u, s ≠ 43 :: u) (h : Signed true s neg u) :
    neg = false ∧ s = u := by
  rcases h with ⟨_, h⟩ | ⟨h1, h⟩ | ⟨_, _, h⟩
  · exact absurd h (h45 _)
  · exact ⟨h1, h⟩
  · exact absurd h (h43 _)

theorem signed_cons_plus {s u : List Nat} {neg : Bool} {w : Nat} {ws t : List Nat} (hw : 97 ≤ w) (h : Signed true (43 :: s) neg u) (hst : StartsWith (w :: ws) u t) :
    neg = false ∧ u = s := by
  rcases h with ⟨_, h⟩ | ⟨h1, h⟩ | ⟨h1, _, h⟩
  · cases h
  · exfalso
    obtain ⟨a, q, rfl, ha⟩ := startsWith_head hst
    cases h
    change (43 : Nat) = w at ha
    omega
  · cases h; exact ⟨h1, rfl⟩

/-- **C18**: with `allow_leading_plus` and a non-JSON format, a plus sign in front of an unsigned text is transparent: if `s` is accepted,
`+s` gives the same error code and value with the pointer one further; if `s` is rejected so is `+s`. -/
theorem C18_plus_transparent (c : Cfg) {ct : CharType} (T : FloatTy) {s : List Nat} (opt : Options) (hin : Input ct s)
    (hl : s.length + 1 < 2 ^ 62) (hdp : ¬ IsDigit opt.decimalPoint) (hf : plusFlag (c.eff opt) = true) (hj : (c.eff opt).testBit 5 = false)
    (h45 : ∀ u, s ≠ 45 :: u) (h43 : ∀ u, s ≠ 43 :: u) (hws : textOf c opt s = s) {r : ApiFloat} (h : fromCharsFloat c ct T.fmt s opt = .ok r) :
    fromCharsFloat c ct T.fmt (43 :: s) opt = if r.ec = .invalidArgument then .ok ⟨0, .invalidArgument, none⟩ else .ok ⟨r.off + 1, r.ec, r.value⟩ := by
  have hin' : Input ct (43 :: s) := hin.cons (by norm_num) hl
  have hws' : textOf c opt (43 :: s) = 43 :: s := textOf_cons (by decide)
  obtain ⟨rest, ho, hoff⟩ := call_outcome hin hdp h
  obtain ⟨off, ec, v⟩ := r
  simp only at ho hoff ⊢
  subst hoff
  rw [hws] at ho
  have hle := ho.rest_le
  have hg1 : (grammar c opt).plus = true := hf
  have hg2 : (grammar c opt).json = false := hj
  have hs1 : refSign (grammar c opt) s = (none, s) := by
    unfold refSign
    rw [if_neg, if_neg]
    · intro h
      simp only [Bool.and_eq_true] at h
      obtain ⟨t, h⟩ := headIs_iff.1 h.2
      exact h43 t h
    · intro h
      obtain ⟨t, h⟩ := headIs_iff.1 h
      exact h45 t h
  have hs2 : refSign (grammar c opt) (43 :: s) = (some 43, s) := by
    unfold refSign
    rw [hg1, hg2]; rfl
  have hsc := scan_cons_sign hs1 hs2
  have hlen : s.length - rest.length + 1 = (43 :: s).length - rest.length := by simp; omega
  cases ho with
  | num hs hno =>
    rename_i n b
    change scanNumeral (grammar c opt) s = _ at hs
    rw [hs] at hsc
    have hne : ¬ ec = .invalidArgument := by
      obtain ⟨ec', v, k, h1, h2⟩ := numCore_spec c hin.wf T (scan_sound hs).1.2.1
      unfold numOut at hno
      rw [h1] at hno
      have hno : (ec', coreBits T.fmt false v) = (ec, b) := Except.ok.inj hno
      rw [← (Prod.mk.inj hno).1]
      rcases h2.ecs with h | h <;> simp [h]
    rw [if_neg hne, hlen]
    apply Outcome.call hin' hdp
    rw [hws']
    have hn : n.neg = false := by
      unfold Numeral.neg
      have : n.sign = none := by
        unfold scanNumeral at hs
        simp only [hs1] at hs
        split at hs
        · split at hs
          · cases hs
          · simp only [Option.some.injEq, Prod.mk.injEq] at hs
            rw [← hs.1]
        · cases hs
      rw [this]; rfl
    have := Outcome.num (c := c) (ct := ct) (T := T) (fmt := c.eff opt) (point := opt.decimalPoint) (t := 43 :: s) (n := { n with sign := some 43 })
      (rest := rest) (ec := ec) (b := b) hsc hno
    rw [hn]
    exact this
  | inf hn ht =>
    rename_i neg
    rw [if_neg (by simp), hlen]
    apply Outcome.call hin' hdp
    rw [hws']
    refine Outcome.inf hn ?_
    rw [hf] at ht ⊢
    obtain ⟨t, q, h1, h2⟩ := ht
    obtain ⟨rfl, rfl⟩ := signed_plus h45 h43 h1
    exact ⟨s, q, Or.inr (Or.inr ⟨rfl, rfl, rfl⟩), h2⟩
  | nan hn ht =>
    rename_i neg
    rw [if_neg (by simp), hlen]
    apply Outcome.call hin' hdp
    rw [hws']
    refine Outcome.nan hn ?_
    rw [hf] at ht ⊢
    obtain ⟨t, q, h1, h2⟩ := ht
    obtain ⟨rfl, rfl⟩ := signed_plus h45 h43 h1
    exact ⟨s, q, Or.inr (Or.inr ⟨rfl, rfl, rfl⟩), h2⟩
  | bad hs hb =>
    rw [if_pos rfl]
    change scanNumeral (grammar c opt) s = _ at hs
    rw [hs] at hsc
    have : (0 : Nat) = (43 :: s).length - (43 :: s).length := by omega
    rw [this]
    apply Outcome.call hin' hdp
    rw [hws']
    refine Outcome.bad hsc ?_
    rcases hb with h | ⟨h1, h2⟩
    · exact Or.inl h
    · right
      rw [hf] at h1 h2 ⊢
      constructor
      · rintro ⟨neg, q, t, q', a1, a2, a3⟩
        obtain ⟨rfl, rfl⟩ := signed_cons_plus (by norm_num) a1 a2
        exact h1 ⟨false, q, t, q', Or.inr (Or.inl ⟨rfl, rfl⟩), a2, a3⟩
      · rintro ⟨neg, q, t, q', a1, a2, a3⟩
        obtain ⟨rfl, rfl⟩ := signed_cons_plus (by norm_num) a1 a2
        exact h2 ⟨false, q, t, q', Or.inr (Or.inl ⟨rfl, rfl⟩), a2, a3⟩

/-- `1e2` and `+1e2` -/
example : fromCharsFloat Cfg.x64 CharType.char binary64 (43 :: hundredAText) { format := 133 } =
    if Errc.ok = .invalidArgument then .ok ⟨0, .invalidArgument, none⟩ else .ok ⟨3 + 1, .ok, some 4636737291354636288⟩ :=
  C18_plus_transparent Cfg.x64 .double { format := 133 } hundredA_input (by decide) sample_point.1 (by decide) (by decide) (by intro u h; cases h)
    (by intro u h; cases h) rfl (r := ⟨3, .ok, some 4636737291354636288⟩) (by decide +kernel)

/-- **C18**: two signs are never accepted. -/
theorem C18_double_sign (c : Cfg) {ct : CharType} (T : FloatTy) {s : List Nat} (opt : Options) (hin : Input ct s)
    (hp : (grammar c opt).PointOK) {a b : Nat} {u : List Nat} (ha : a = 43 ∨ a = 45) (hb : b = 43 ∨ b = 45) (ht : textOf c opt s = a :: b :: u) :
    fromCharsFloat c ct T.fmt s opt = .ok ⟨s.length - (textOf c opt s).length, .invalidArgument, none⟩ := by
  have hbd : ¬ IsDigit b := by unfold IsDigit; omega
  have had : ¬ IsDigit a := by unfold IsDigit; omega
  have hbp : b ≠ (grammar c opt).point := by rcases hb with rfl | rfl; exact Ne.symm hp.2.1; exact Ne.symm hp.2.2.1
  have hap : a ≠ (grammar c opt).point := by rcases ha with rfl | rfl; exact Ne.symm hp.2.1; exact Ne.symm hp.2.2.1
  have hno : ∀ (w : Nat) (ws : List Nat) (neg : Bool) (t r : List Nat) (plus : Bool), 97 ≤ w → Signed plus (a :: b :: u) neg t → StartsWith (w :: ws) t r → False := by
    intro w ws neg t r plus hw hs hst
    obtain ⟨x, q, rfl, hx⟩ := startsWith_head hst
    have hla : lower a = a := by unfold lower; rw [if_neg]; omega
    have hlb : lower b = b := by unfold lower; rw [if_neg]; omega
    rcases hs with ⟨_, h⟩ | ⟨_, h⟩ | ⟨_, _, h⟩ <;> cases h <;> omega
  apply Outcome.call hin hp.1
  apply Outcome.bad
  · change scanNumeral (grammar c opt) _ = none
    rw [ht]
    have hcase : refSign (grammar c opt) (a :: b :: u) = (some a, b :: u) ∨ refSign (grammar c opt) (a :: b :: u) = (none, a :: b :: u) := by
      unfold refSign
      split
      · rename_i h; left
        obtain ⟨t, h⟩ := headIs_iff.1 h
        cases h; rfl
      · split
        · rename_i h; left
          simp only [Bool.and_eq_true] at h
          obtain ⟨t, h⟩ := headIs_iff.1 h.2
          cases h; rfl
        · exact Or.inr rfl
    rcases hcase with h | h
    · have hnd : NoDigit (b :: u) := by intro x y h; cases h; exact hbd
      unfold scanNumeral
      simp only [h, (run_of_noDigit hnd).1, (run_of_noDigit hnd).2]
      have hf : refFrac (grammar c opt) (b :: u) = (none, b :: u) := by
        unfold refFrac
        exact if_neg (by simp [headIs, hbp])
      rw [hf, if_neg]
      unfold mantOK
      cases (grammar c opt).json <;> simp
    · exact scan_nosign h rfl had hap
  · right
    rw [ht]
    constructor
    · rintro ⟨neg, q, t, q', a1, a2, a3⟩
      exact hno _ _ _ _ _ _ (by norm_num) a1 a2
    · rintro ⟨neg, q, t, q', a1, a2, a3⟩
      exact hno _ _ _ _ _ _ (by norm_num) a1 a2

/-- `+-1` even with `allow_leading_plus`. -/
example : fromCharsFloat Cfg.x64 CharType.char binary64 [43, 45, 49] { format := 133 } = .ok ⟨0, .invalidArgument, none⟩ :=
  C18_double_sign Cfg.x64 .double { format := 133 } (input_of_bytes (by decide) (by decide)) sample_point (a := 43) (b := 45) (u := [49]) (Or.inl rfl) (Or.inr rfl) rfl

example : fromCharsFloat Cfg.x64 CharType.char binary64 [43, 49] {} = .ok ⟨0, .invalidArgument, none⟩ := by decide +kernel
example : fromCharsFloat Cfg.x64 CharType.char binary64 [43, 49] { format := 5 + 128 } = .ok ⟨2, .ok, some 0x3FF0000000000000⟩ := by decide +kernel
example : fromCharsFloat Cfg.x64 CharType.char binary64 [43, 49] { format := 53 + 128 } = .ok ⟨0, .invalidArgument, none⟩ := by decide +kernel
/-- The "JSON or inf/nan" format does accept `+inf` when the plus flag is set. -/
example : fromCharsFloat Cfg.x64 CharType.char binary64 [43, 105, 110, 102] { format := 37 + 128 } = .ok ⟨4, .ok, some 0x7FF0000000000000⟩ := by decide +kernel

/-! ### C19 -/

/-- **C19**: with `skip_white_space`, leading blanks only move the pointer. -/
theorem C19_blanks_skipped (c : Cfg) {ct : CharType} (T : FloatTy) {s ws : List Nat} (opt : Options) (hin : Input ct (ws ++ s))
    (hdp : ¬ IsDigit opt.decimalPoint) (hf : wsFlag (c.eff opt) = true) (hb : ∀ u ∈ ws, ApiSpec.isSpace u = true)
    {r : ApiFloat} (h : fromCharsFloat c ct T.fmt s opt = .ok r) :
    fromCharsFloat c ct T.fmt (ws ++ s) opt = .ok ⟨ws.length + r.off, r.ec, r.value⟩ := by
  have hin' : Input ct s := ⟨hin.wf, fun u hu => hin.units u (List.mem_append_right _ hu), by have := hin.len; rw [List.length_append] at this; omega⟩
  obtain ⟨rest, ho, hoff⟩ := call_outcome hin' hdp h
  have ht : textOf c opt (ws ++ s) = textOf c opt s := by
    unfold textOf body
    rw [hf]
    simp only [if_true]
    rw [List.dropWhile_append_of_pos hb]
  have hle : rest.length ≤ s.length := by
    obtain ⟨w, w1, _⟩ := textOf_suffix c opt s
    have := ho.rest_le
    have := congrArg List.length w1
    rw [List.length_append] at this; omega
  rw [← ht] at ho
  rw [Outcome.call hin hdp ho, hoff]
  congr 2
  simp; omega

/-- Two blanks before `1e2`. -/
example : fromCharsFloat Cfg.x64 CharType.char binary64 ([32, 9] ++ hundredAText) { format := 261 } = .ok ⟨2 + 3, .ok, some 4636737291354636288⟩ :=
  C19_blanks_skipped Cfg.x64 .double { format := 261 } (input_of_bytes (by decide) (by decide)) sample_point.1 (by decide) (by decide)
    (r := ⟨3, .ok, some 4636737291354636288⟩) (by decide +kernel)

/-- **C19**: without `skip_white_space`, a text that starts with a blank is rejected (unless that blank is the decimal point). -/
theorem C19_blank_rejected (c : Cfg) {ct : CharType} (T : FloatTy) {s : List Nat} {a : Nat} (opt : Options) (hin : Input ct (a :: s))
    (hdp : ¬ IsDigit opt.decimalPoint) (hf : wsFlag (c.eff opt) = false) (hb : ApiSpec.isSpace a = true) (hap : a ≠ opt.decimalPoint) :
    fromCharsFloat c ct T.fmt (a :: s) opt = .ok ⟨0, .invalidArgument, none⟩ := by
  have ha : a = 32 ∨ (9 ≤ a ∧ a ≤ 13) := by
    unfold ApiSpec.isSpace at hb
    simpa using hb
  have ht : textOf c opt (a :: s) = a :: s := by unfold textOf body; rw [hf]; rfl
  have : (0 : Nat) = (a :: s).length - (a :: s).length := by omega
  rw [this]
  apply Outcome.call hin hdp
  rw [ht]
  apply Outcome.bad
  · refine scan_nosign ?_ rfl (by unfold IsDigit; omega) hap
    unfold refSign
    rw [if_neg, if_neg]
    · intro h
      simp only [Bool.and_eq_true] at h
      obtain ⟨t, h⟩ := headIs_iff.1 h.2
      cases h; omega
    · intro h
      obtain ⟨t, h⟩ := headIs_iff.1 h
      cases h; omega
  · have hla : lower a = a := by unfold lower; rw [if_neg]; omega
    exact Or.inr ⟨no_inf_head (by omega) (fun _ => by omega) (by omega), no_nan_head (by omega) (fun _ => by omega) (by omega)⟩

example : fromCharsFloat Cfg.x64 CharType.char binary64 (32 :: hundredAText) {} = .ok ⟨0, .invalidArgument, none⟩ :=
  C19_blank_rejected Cfg.x64 .double {} (input_of_bytes (by decide) (by decide)) sample_point.1 (by decide) (by decide) (by decide)

theorem numeral_flags (fmt point : Nat) : rules (fmt ||| 256) point = rules fmt point ∧ noInfNan (fmt ||| 256) = noInfNan fmt ∧ plusFlag (fmt ||| 256) = plusFlag fmt := by
  have h : ∀ i ≤ 7, (fmt ||| 256).testBit i = fmt.testBit i := by
    intro i hi
    rw [Nat.testBit_or, show (256 : Nat) = 2 ^ 8 from rfl, Nat.testBit_two_pow_of_ne (by omega), Bool.or_false]
  unfold rules noInfNan plusFlag
  refine ⟨?_, h 4 (by omega), h 7 (by omega)⟩
  rw [h 5 (by omega), h 7 (by omega), h 2 (by omega), h 0 (by omega), h 6 (by omega)]

theorem eff_or (c : Cfg) (opt : Options) (b : Nat) : c.eff { opt with format := opt.format ||| b } = c.eff opt ||| b := by
  unfold Cfg.eff effective
  simp only
  rw [Nat.or_assoc, Nat.or_comm b, ← Nat.or_assoc]

/-- **C19**: nothing but blanks is skipped: on a text that does not start with a blank the flag makes no difference. -/
theorem C19_only_blanks (c : Cfg) {ct : CharType} (T : FloatTy) {s : List Nat} (opt : Options) (hin : Input ct s)
    (hdp : ¬ IsDigit opt.decimalPoint) (hb : ∀ a u, s = a :: u → ApiSpec.isSpace a = false) :
    fromCharsFloat c ct T.fmt s { opt with format := opt.format ||| 256 } = fromCharsFloat c ct T.fmt s opt := by
  have ht : ∀ o : Options, textOf c o s = s := by
    intro o
    cases s with
    | nil => unfold textOf body; split <;> rfl
    | cons a u => exact textOf_cons (hb a u rfl)
  obtain ⟨rest, ec, v, ho⟩ := outcome_exists c hin.wf T (c.eff opt) opt.decimalPoint (textOf c opt s)
  rw [Outcome.call hin hdp ho]
  refine Outcome.call (opt := { opt with format := opt.format ||| 256 }) hin hdp ?_
  rw [ht] at ho ⊢
  rw [eff_or]
  obtain ⟨e1, e2, e3⟩ := numeral_flags (c.eff opt) opt.decimalPoint
  cases ho with
  | num hs hno => exact Outcome.num (by rw [e1]; exact hs) hno
  | inf hn ht => exact Outcome.inf (by rw [e2]; exact hn) (by rw [e3]; exact ht)
  | nan hn ht => exact Outcome.nan (by rw [e2]; exact hn) (by rw [e3]; exact ht)
  | bad hs hb => exact Outcome.bad (by rw [e1]; exact hs) (by rw [e2, e3]; exact hb)

example : fromCharsFloat Cfg.x64 CharType.char binary64 [32, 9, 49] { format := 5 + 256 } = .ok ⟨3, .ok, some 0x3FF0000000000000⟩ := by decide +kernel
example : fromCharsFloat Cfg.x64 CharType.char binary64 [32, 9, 49] {} = .ok ⟨0, .invalidArgument, none⟩ := by decide +kernel

/-! ### C20, C21 -/

theorem infBits_eq (T : FloatTy) (neg : Bool) : infBits T.fmt neg = (if neg then T.spec.signBit else 0) + T.spec.inf := by
  cases T <;> cases neg <;> rfl

theorem nanBits_eq (T : FloatTy) (neg : Bool) : IsNaN T.spec (nanBits T.fmt neg) ∧ (T.spec.signBit ≤ nanBits T.fmt neg ↔ neg = true) := by
  unfold IsNaN
  cases T <;> cases neg <;> decide

/-- **C20**: an infinity spelled `inf` or `infinity` in any letter case, with an optional `-` (or `+` when allowed), is stored with its sign,
without error, and the pointer is after the longest such spelling. -/
theorem C20_infinity (c : Cfg) {ct : CharType} (T : FloatTy) {s : List Nat} (opt : Options) (hin : Input ct s)
    (hdp : ¬ IsDigit opt.decimalPoint) (hf : noInfNan (c.eff opt) = false) {neg : Bool} {rest : List Nat}
    (ht : InfText (plusFlag (c.eff opt)) (textOf c opt s) neg rest) :
    fromCharsFloat c ct T.fmt s opt = .ok ⟨s.length - rest.length, .ok, some ((if neg then T.spec.signBit else 0) + T.spec.inf)⟩ := by
  rw [Outcome.call hin hdp (Outcome.inf hf ht), infBits_eq]

/-- **C20**: a NaN spelled `nan` or `nan(...)`. -/
theorem C20_nan (c : Cfg) {ct : CharType} (T : FloatTy) {s : List Nat} (opt : Options) (hin : Input ct s)
    (hdp : ¬ IsDigit opt.decimalPoint) (hf : noInfNan (c.eff opt) = false) {neg : Bool} {rest : List Nat}
    (ht : NanText (plusFlag (c.eff opt)) (textOf c opt s) neg rest) :
    ∃ b, fromCharsFloat c ct T.fmt s opt = .ok ⟨s.length - rest.length, .ok, some b⟩ ∧ IsNaN T.spec b ∧ (T.spec.signBit ≤ b ↔ neg = true) := by
  refine ⟨_, Outcome.call hin hdp (Outcome.nan hf ht), (nanBits_eq T neg).1, (nanBits_eq T neg).2⟩

/-- `naN(_1))` -/
example : ∃ b, fromCharsFloat Cfg.x64 CharType.char binary64 [110, 97, 78, 40, 95, 49, 41, 41] {} = .ok ⟨7, .ok, some b⟩ ∧ IsNaN double b ∧
    (double.signBit ≤ b ↔ false = true) :=
  C20_nan Cfg.x64 .double {} (input_of_bytes (by decide) (by decide)) sample_point.1 (by decide) (neg := false) (rest := [41])
    ⟨[110, 97, 78, 40, 95, 49, 41, 41], [40, 95, 49, 41, 41], Or.inr (Or.inl ⟨rfl, rfl⟩), ⟨[110, 97, 78], rfl, rfl⟩,
      Or.inl ⟨[95, 49], by unfold NanChar; decide, rfl⟩⟩

/-- "-INFinitx" -/
example : fromCharsFloat Cfg.x64 CharType.char binary64 [45, 73, 78, 70, 105, 110, 105, 116, 120] {} = .ok ⟨4, .ok, some 0xFFF0000000000000⟩ :=
  C20_infinity Cfg.x64 .double {} (input_of_bytes (by decide) (by decide)) sample_point.1 (by decide) (neg := true) (rest := [105, 110, 105, 116, 120])
    ⟨[73, 78, 70, 105, 110, 105, 116, 120], [105, 110, 105, 116, 120], Or.inl ⟨rfl, rfl⟩, ⟨[73, 78, 70], rfl, rfl⟩, Or.inr ⟨by
      rintro ⟨q, v, h1, h2⟩
      have h3 : v.length = 5 := by have := congrArg List.length h2; simpa [wInity] using this
      match v, h3 with
      | [a, b, c, d, e], _ =>
        simp at h1
        obtain ⟨rfl, rfl, rfl, rfl, rfl, _⟩ := h1
        revert h2; decide, rfl⟩⟩
example : fromCharsFloat Cfg.x64 CharType.char binary64 [110, 97, 78, 40, 95, 49, 41, 41] {} = .ok ⟨7, .ok, some 0x7FF8000000000000⟩ := by decide +kernel

/-- **C20**, the rest: only numbers and these spellings are accepted. -/
theorem C20_only_these (c : Cfg) {ct : CharType} (T : FloatTy) {s : List Nat} (opt : Options) (hin : Input ct s)
    (hp : (grammar c opt).PointOK) {r : ApiFloat} (h : fromCharsFloat c ct T.fmt s opt = .ok r) (ha : r.ec ≠ .invalidArgument) :
    (∃ n rest, AcceptsNumber c ct T s opt n rest r) ∨ (noInfNan (c.eff opt) = false ∧ InfNanText c opt s) := by
  obtain ⟨rest, ho, hoff⟩ := call_outcome hin hp.1 h
  obtain ⟨ec, hec⟩ : ∃ ec, r.ec = ec := ⟨_, rfl⟩
  obtain ⟨v, hv⟩ : ∃ v, r.value = v := ⟨_, rfl⟩
  have ha' := ha
  rw [hec] at ha ho
  rw [hv] at ho
  cases ho with
  | num hs hno => exact Or.inl ⟨_, _, h, ha', scan_longest hp hs⟩
  | inf hn ht => exact Or.inr ⟨hn, Or.inl ⟨_, _, ht⟩⟩
  | nan hn ht => exact Or.inr ⟨hn, Or.inr ⟨_, _, ht⟩⟩
  | bad hs hb => exact absurd rfl ha

example : (∃ n rest, AcceptsNumber Cfg.x64 CharType.char .float underText {} n rest ⟨6, .outOfRange, some 2147483648⟩) ∨
    (noInfNan (Cfg.x64.eff {}) = false ∧ InfNanText Cfg.x64 {} underText) :=
  C20_only_these Cfg.x64 .float {} under_input sample_point under_accepts.result under_accepts.accepted

/-- **C21**: with `no_infnan` an infinity or NaN spelling is rejected. -/
theorem C21_no_infnan (c : Cfg) {ct : CharType} (T : FloatTy) {s : List Nat} (opt : Options) (hin : Input ct s)
    (hdp : ¬ IsDigit opt.decimalPoint) (hf : noInfNan (c.eff opt) = true) (ht : InfNanText c opt s) :
    fromCharsFloat c ct T.fmt s opt = .ok ⟨s.length - (textOf c opt s).length, .invalidArgument, none⟩ := by
  apply Outcome.call hin hdp
  apply Outcome.bad _ (Or.inl hf)
  rcases ht with ⟨neg, rest, h⟩ | ⟨neg, rest, h⟩
  · exact scan_none_of_infnan (Or.inl h)
  · exact scan_none_of_infnan (Or.inr h)

/-- `nan` -/
example : fromCharsFloat Cfg.x64 CharType.char binary64 [110, 97, 110] { format := 21 } = .ok ⟨0, .invalidArgument, none⟩ :=
  C21_no_infnan Cfg.x64 .double { format := 21 } (input_of_bytes (by decide) (by decide)) sample_point.1 (by decide)
    (Or.inr ⟨false, [], [110, 97, 110], [], Or.inr (Or.inl ⟨rfl, rfl⟩), ⟨[110, 97, 110], rfl, rfl⟩, Or.inr ⟨(by rintro ⟨q, w, _, h⟩; cases h), rfl⟩⟩)

/-- **C21**: with `no_infnan` the outcome is a number or `invalid_argument`, and no NaN is ever stored. -/
theorem C21_number_or_invalid (c : Cfg) {ct : CharType} (T : FloatTy) {s : List Nat} (opt : Options) (hin : Input ct s)
    (hp : (grammar c opt).PointOK) (hf : noInfNan (c.eff opt) = true) {r : ApiFloat} (h : fromCharsFloat c ct T.fmt s opt = .ok r) :
    ((∃ n rest, AcceptsNumber c ct T s opt n rest r) ∨ (r.ec = .invalidArgument ∧ r.value = none)) ∧ ∀ b, r.value = some b → ¬ IsNaN T.spec b := by
  by_cases ha : r.ec = .invalidArgument
  · have := (C14_failure_leaves_value c T opt hin hp.1 h ha).1
    exact ⟨Or.inr ⟨ha, this⟩, fun b hb => by rw [this] at hb; cases hb⟩
  · rcases C20_only_these c T opt hin hp h ha with ⟨n, rest, hn⟩ | ⟨h1, _⟩
    · refine ⟨Or.inl ⟨n, rest, hn⟩, ?_⟩
      obtain ⟨b, hb, h2, _⟩ := C44_never_nan c T opt hin hp hn
      intro b' hb'
      rw [hb] at hb'; cases hb'; exact h2
    · rw [hf] at h1; cases h1

example : ∀ b, (some 4636737291354636288 : Option Nat) = some b → ¬ IsNaN double b :=
  (C21_number_or_invalid Cfg.x64 .double { format := 21 } hundredA_input sample_point (by decide) (r := ⟨3, .ok, some 4636737291354636288⟩) (by decide +kernel)).2

example : fromCharsFloat Cfg.x64 CharType.char binary64 [110, 97, 110] { format := 5 + 16 } = .ok ⟨0, .invalidArgument, none⟩ := by decide +kernel

end FastFloat
