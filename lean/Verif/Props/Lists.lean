import Verif.Props.Delim
import Verif.Props.Integer
/-
# C64: reading a list of numbers with a loop

The loop below is not part of fast_float; it is what its users write: call `from_chars`, stop at an error, go on behind the delimiter that `ptr` points to.
-/
set_option linter.unusedSimpArgs false
set_option autoImplicit false
namespace FastFloat
open NumSpec FloatSpec ApiSpec

/-- Values separated by the delimiter `d`: the numbers read, and the text left over.  `parse` returns the offset of `ptr` and the value in case of success. -/
def readList {α : Type} (parse : List Nat → Exec (Nat × Option α)) (d : Nat) : Nat → List Nat → Exec (List α × List Nat)
  | 0, s => .ok ([], s)
  | k + 1, s =>
    match parse s with
    | .error e => .error e
    | .ok (_, none) => .ok ([], s)
    | .ok (off, some v) =>
      match s.drop off with
      | [] => .ok ([v], [])
      | x :: q =>
        if x = d then
          match readList parse d k q with
          | .error e => .error e
          | .ok r => .ok (v :: r.1, r.2)
        else .ok ([v], x :: q)

/-- The text of a list: the fields, with a delimiter between two of them. -/
def joinFields (d : Nat) : List (List Nat) → List Nat
  | [] => []
  | [x] => x
  | x :: y :: l => x ++ d :: joinFields d (y :: l)

/-- `from_chars` as the loop uses it. -/
def floatField (c : Cfg) (ct : CharType) (T : FloatTy) (opt : Options) (s : List Nat) : Exec (Nat × Option Nat) :=
  match fromCharsFloat c ct T.fmt s opt with
  | .error e => .error e
  | .ok r => .ok (r.off, if r.ec = .ok then r.value else none)

def intField (c : Cfg) (ct : CharType) (T : IntType) (opt : Options) (s : List Nat) : Exec (Nat × Option Int) :=
  match fromCharsIntApi c ct T s opt with
  | .error e => .error e
  | .ok r => .ok (r.off, if r.ec = .ok then r.value else none)

theorem readList_join {α : Type} {parse : List Nat → Exec (Nat × Option α)} {d : Nat} {P : List Nat → Prop} (hP : ∀ x q, P (x ++ d :: q) → P q)
    (hd : ∀ x q v, P (x ++ d :: q) → parse x = .ok (x.length, some v) → parse (x ++ d :: q) = .ok (x.length, some v)) :
    ∀ (l : List (List Nat × α)), l ≠ [] → (∀ f ∈ l, parse f.1 = .ok (f.1.length, some f.2)) → P (joinFields d (l.map (·.1))) → ∀ k, l.length ≤ k →
      readList parse d k (joinFields d (l.map (·.1))) = .ok (l.map (·.2), []) := by
  intro l
  induction l with
  | nil => intro h; exact absurd rfl h
  | cons f l ih =>
    intro _ hl hp k hk
    obtain ⟨k, rfl⟩ : ∃ j, k = j + 1 := ⟨k - 1, by simp at hk; omega⟩
    have hf := hl f (by simp)
    cases l with
    | nil =>
      unfold readList
      show (match parse f.1 with | .error e => _ | .ok (_, none) => _ | .ok (off, some v) => _) = _
      rw [hf]
      simp only [List.map, joinFields, List.drop_length]
    | cons y l =>
      have hj : joinFields d ((f :: y :: l).map (·.1)) = f.1 ++ d :: joinFields d ((y :: l).map (·.1)) := rfl
      rw [hj] at hp ⊢
      have ih := ih (by simp) (fun g hg => hl g (by simp [hg])) (hP _ _ hp) k (by simp at hk ⊢; omega)
      unfold readList
      rw [hd _ _ _ hp hf]
      simp only [List.drop_left]
      rw [if_pos trivial, ih]
      rfl

/-- The loop stops at the first field that can not be read, after the values of the fields before it. -/
theorem readList_stop {α : Type} {parse : List Nat → Exec (Nat × Option α)} {d : Nat} {P : List Nat → Prop} (hP : ∀ x q, P (x ++ d :: q) → P q)
    (hd : ∀ x q v, P (x ++ d :: q) → parse x = .ok (x.length, some v) → parse (x ++ d :: q) = .ok (x.length, some v)) {bad : List Nat} {o : Nat}
    (hbad : parse bad = .ok (o, none)) :
    ∀ (l : List (List Nat × α)), (∀ f ∈ l, parse f.1 = .ok (f.1.length, some f.2)) → P (joinFields d (l.map (·.1) ++ [bad])) → ∀ k, l.length + 1 ≤ k →
      readList parse d k (joinFields d (l.map (·.1) ++ [bad])) = .ok (l.map (·.2), bad) := by
  intro l
  induction l with
  | nil =>
    intro _ _ k hk
    obtain ⟨k, rfl⟩ : ∃ j, k = j + 1 := ⟨k - 1, by simp at hk; omega⟩
    unfold readList
    show (match parse bad with | .error e => _ | .ok (_, none) => _ | .ok (off, some v) => _) = _
    rw [hbad]
    rfl
  | cons f l ih =>
    intro hl hp k hk
    obtain ⟨k, rfl⟩ : ∃ j, k = j + 1 := ⟨k - 1, by simp at hk; omega⟩
    have hf := hl f (by simp)
    have hj : joinFields d ((f :: l).map (·.1) ++ [bad]) = f.1 ++ d :: joinFields d (l.map (·.1) ++ [bad]) := by
      cases l <;> rfl
    rw [hj] at hp ⊢
    have ih := ih (fun g hg => hl g (by simp [hg])) (hP _ _ hp) k (by simp at hk ⊢; omega)
    unfold readList
    rw [hd _ _ _ hp hf]
    simp only [List.drop_left]
    rw [if_pos trivial, ih]
    rfl

theorem input_after {ct : CharType} {d : Nat} (x q : List Nat) (h : Input ct (x ++ d :: q)) : Input ct q :=
  ⟨h.wf, fun u hu => h.units u (by simp [hu]), by have := h.len; rw [List.length_append, List.length_cons] at this; omega⟩

theorem input_before {ct : CharType} {d : Nat} (x q : List Nat) (h : Input ct (x ++ d :: q)) : Input ct x :=
  ⟨h.wf, fun u hu => h.units u (by simp [hu]), by have := h.len; rw [List.length_append, List.length_cons] at this; omega⟩

theorem floatField_delim {c : Cfg} {ct : CharType} {T : FloatTy} {opt : Options} {d : Nat} (hd : Neutral d) (hpt : d ≠ opt.decimalPoint)
    (hdp : ¬ IsDigit opt.decimalPoint) (x q : List Nat) (v : Nat) (h : Input ct (x ++ d :: q)) (hx : floatField c ct T opt x = .ok (x.length, some v)) :
    floatField c ct T opt (x ++ d :: q) = .ok (x.length, some v) := by
  have hin' := input_before x q h
  unfold floatField at hx ⊢
  have ht : textOf c opt x ≠ [] := by
    intro he
    have h1 := float_cases c hin'.wf T opt hin'.ok hin'.len hdp
    rw [hin'.body_eq, he] at h1
    have hs : scanNumeral (rules (c.eff opt) opt.decimalPoint) [] = none := by
      unfold scanNumeral
      have e1 : (refSign (rules (c.eff opt) opt.decimalPoint) []).2 = [] := by unfold refSign; simp [headIs]
      simp only [e1]
      rw [if_neg]
      have := mant_false_of (g := rules (c.eff opt) opt.decimalPoint) (t := []) rfl (Or.inr rfl)
      rw [this]; simp
    have hbad : fromCharsFloat c ct T.fmt x opt = .ok ⟨x.length - 0, .invalidArgument, none⟩ := by
      cases hn : noInfNan (c.eff opt) with
      | true => exact (h1.2 hs).1 hn
      | false =>
        refine ((h1.2 hs).2 hn).2.2 ?_ ?_
        · rintro ⟨neg, rest, t, r, a, ⟨v, b, e⟩, _⟩
          have hv : t = [] := by rcases a with ⟨_, a⟩ | ⟨_, a⟩ | ⟨_, _, a⟩ <;> first | (cases a; done) | exact a.symm
          rw [hv] at b
          have : v = [] := by cases v with | nil => rfl | cons => cases b
          rw [this] at e; cases e
        · rintro ⟨neg, rest, t, r, a, ⟨v, b, e⟩, _⟩
          have hv : t = [] := by rcases a with ⟨_, a⟩ | ⟨_, a⟩ | ⟨_, _, a⟩ <;> first | (cases a; done) | exact a.symm
          rw [hv] at b
          have : v = [] := by cases v with | nil => rfl | cons => cases b
          rw [this] at e; cases e
    rw [hbad] at hx
    cases hx
  rw [C23_delimiter c T opt h hdp hd hpt (Or.inr ht)]
  exact hx
/-- **C64**: a list of numbers in any spelling, separated by a delimiter that is part of no number, is read completely by the loop: every field gives
the value that parsing it alone gives, nothing is lost, merged or left over - for every length of the list. -/
theorem C64_float_list (c : Cfg) {ct : CharType} (T : FloatTy) (opt : Options) {d : Nat} (hd : Neutral d) (hpt : d ≠ opt.decimalPoint)
    (hdp : ¬ IsDigit opt.decimalPoint) (fields : List (List Nat × Nat)) (hne : fields ≠ []) (hin : Input ct (joinFields d (fields.map (·.1))))
    (hf : ∀ f ∈ fields, fromCharsFloat c ct T.fmt f.1 opt = .ok ⟨f.1.length, .ok, some f.2⟩) :
    readList (floatField c ct T opt) d fields.length (joinFields d (fields.map (·.1))) = .ok (fields.map (·.2), []) := by
  refine readList_join (P := Input ct) input_after (floatField_delim hd hpt hdp) fields hne ?_ hin _ le_rfl
  intro f hm
  unfold floatField
  rw [hf f hm]
  rfl

/-- **C64**: if the last field can not be read (invalid or out of range), the loop returns the values of the fields before it and stops in front of it. -/
theorem C64_float_stop (c : Cfg) {ct : CharType} (T : FloatTy) (opt : Options) {d : Nat} (hd : Neutral d) (hpt : d ≠ opt.decimalPoint)
    (hdp : ¬ IsDigit opt.decimalPoint) (fields : List (List Nat × Nat)) {bad : List Nat} (hin : Input ct (joinFields d (fields.map (·.1) ++ [bad])))
    (hf : ∀ f ∈ fields, fromCharsFloat c ct T.fmt f.1 opt = .ok ⟨f.1.length, .ok, some f.2⟩)
    {r : ApiFloat} (hb : fromCharsFloat c ct T.fmt bad opt = .ok r) (hr : r.ec ≠ .ok) :
    readList (floatField c ct T opt) d (fields.length + 1) (joinFields d (fields.map (·.1) ++ [bad])) = .ok (fields.map (·.2), bad) := by
  refine readList_stop (P := Input ct) (o := r.off) input_after (floatField_delim hd hpt hdp) ?_ fields ?_ hin _ le_rfl
  · unfold floatField
    rw [hb]
    simp only [if_neg hr]
  · intro f hm
    unfold floatField
    rw [hf f hm]
    rfl

theorem intField_delim {c : Cfg} {ct : CharType} {T : IntType} (hT : T.WF) {opt : Options} {d : Nat} (hd : ¬ IntSpec.IsDigit opt.base.toNat d) (h45 : d ≠ 45) (h43 : d ≠ 43)
    (x q : List Nat) (v : Int) (h : Input ct (x ++ d :: q)) (hx : intField c ct T opt x = .ok (x.length, some v)) :
    intField c ct T opt (x ++ d :: q) = .ok (x.length, some v) := by
  have hin' := input_before x q h
  unfold intField at hx ⊢
  have ht : textOf c opt x ≠ [] := by
    intro he
    rw [intCall_eq, hin'.body_eq, he, if_pos (Or.inl (show ([] : List Nat).length = 0 from rfl))] at hx
    cases hx
  rw [C49_int_delimiter c hT opt h hd h45 h43 (Or.inr ht)]
  exact hx

/-- **C64** for integers. -/
theorem C64_int_list (c : Cfg) {ct : CharType} {T : IntType} (hT : T.WF) (opt : Options) {d : Nat} (hd : ¬ IntSpec.IsDigit opt.base.toNat d) (h45 : d ≠ 45) (h43 : d ≠ 43)
    (fields : List (List Nat × Int)) (hne : fields ≠ []) (hin : Input ct (joinFields d (fields.map (·.1))))
    (hf : ∀ f ∈ fields, fromCharsIntApi c ct T f.1 opt = .ok ⟨f.1.length, .ok, some f.2⟩) :
    readList (intField c ct T opt) d fields.length (joinFields d (fields.map (·.1))) = .ok (fields.map (·.2), []) := by
  refine readList_join (P := Input ct) input_after (intField_delim hT hd h45 h43) fields hne ?_ hin _ le_rfl
  intro f hm
  unfold intField
  rw [hf f hm]
  rfl

theorem joinFields_mem {d : Nat} : ∀ (l : List (List Nat)) (x : List Nat), x ∈ l → ∃ a b, joinFields d l = a ++ x ++ b := by
  intro l
  induction l with
  | nil => intro x h; cases h
  | cons y l ih =>
    intro x h
    cases l with
    | nil =>
      rw [List.mem_singleton] at h
      subst h
      exact ⟨[], [], by simp [joinFields]⟩
    | cons z l =>
      rcases List.mem_cons.1 h with rfl | h
      · exact ⟨[], d :: joinFields d (z :: l), rfl⟩
      · obtain ⟨a, b, e⟩ := ih x h
        refine ⟨y ++ d :: a, b, ?_⟩
        show y ++ d :: joinFields d (z :: l) = _
        rw [e]; simp

/-- **C64**: a list of values of an integer type, printed in any base with a delimiter between two of them, is read back - for every list. -/
theorem C64_int_list_round_trip (c : Cfg) {ct : CharType} {T : IntType} (hT : T.WF) (opt : Options) {b : Nat} (hbase : opt.base = (b : Int)) (h2 : 2 ≤ b) (h36 : b ≤ 36)
    (caps : Nat → Bool) {d : Nat} (hd : ¬ IntSpec.IsDigit b d) (h45 : d ≠ 45) (h43 : d ≠ 43) (xs : List Int) (hne : xs ≠ [])
    (hx : ∀ x ∈ xs, IntSpec.Fits T.bits T.signed x) (hin : Input ct (joinFields d (xs.map (IntSpec.print b caps)))) :
    readList (intField c ct T opt) d xs.length (joinFields d (xs.map (IntSpec.print b caps))) = .ok (xs, []) := by
  have hm : (xs.map fun x => (IntSpec.print b caps x, x)).map (·.1) = xs.map (IntSpec.print b caps) := by
    rw [List.map_map]; rfl
  have hm2 : (xs.map fun x => (IntSpec.print b caps x, x)).map (·.2) = xs := by
    rw [List.map_map]; exact List.map_id' xs
  have key := C64_int_list c hT opt (d := d) (by rw [hbase]; exact hd) h45 h43 (xs.map fun x => (IntSpec.print b caps x, x)) (by simpa using hne)
    (by rw [hm]; exact hin) (by
      intro f hf
      obtain ⟨x, hx1, rfl⟩ := List.mem_map.1 hf
      obtain ⟨p, q, hpq⟩ := joinFields_mem (d := d) (xs.map (IntSpec.print b caps)) (IntSpec.print b caps x) (List.mem_map_of_mem hx1)
      have hinx : Input ct (IntSpec.print b caps x ++ []) := by
        rw [hpq] at hin
        refine ⟨hin.wf, fun u hu => hin.units u ?_, ?_⟩
        · simp at hu; simp [hu]
        · have := hin.len; simp at this ⊢; omega
      have := C43_round_trip c hT opt hbase h2 h36 caps (hx x hx1) (rest := []) (by simp) hinx
      rw [List.append_nil] at this
      exact this)
  rw [hm, hm2, List.length_map] at key
  exact key

/-- `1.5,-2,1e400`: two values, then a range error. -/
example : readList (floatField Cfg.x64 CharType.char .double {}) 44 3 [49, 46, 53, 44, 45, 50, 44, 49, 101, 52, 48, 48] =
    .ok ([0x3ff8000000000000, 2 ^ 63 + 2 ^ 62], [49, 101, 52, 48, 48]) :=
  C64_float_stop Cfg.x64 (ct := CharType.char) .double {} (d := 44) (by unfold Neutral NanChar; decide) (by decide) sample_point.1
    [([49, 46, 53], 0x3ff8000000000000), ([45, 50], 2 ^ 63 + 2 ^ 62)] (bad := [49, 101, 52, 48, 48]) (input_of_bytes (by decide) (by decide))
    (by decide +kernel) (r := ⟨5, .outOfRange, some 0x7ff0000000000000⟩) (by decide +kernel) (by decide)
example : readList (floatField Cfg.x64 CharType.char .double {}) 44 2 [49, 46, 53, 44, 45, 50] = .ok ([0x3ff8000000000000, 2 ^ 63 + 2 ^ 62], []) :=
  C64_float_list Cfg.x64 (ct := CharType.char) .double {} (d := 44) (by unfold Neutral NanChar; decide) (by decide) sample_point.1
    [([49, 46, 53], 0x3ff8000000000000), ([45, 50], 2 ^ 63 + 2 ^ 62)] (by simp) (input_of_bytes (by decide) (by decide)) (by decide +kernel)
/-- `-128;127;0` -/
example : readList (intField Cfg.x64 CharType.char ⟨8, true, false, false, false⟩ {}) 59 3 (joinFields 59 ([-128, 127, 0].map (IntSpec.print 10 fun _ => false))) = .ok ([-128, 127, 0], []) :=
  C64_int_list_round_trip Cfg.x64 (ct := CharType.char) (by decide) {} (b := 10) rfl (by decide) (by decide) (fun _ => false) (by decide) (by decide) (by decide)
    [-128, 127, 0] (by simp) (by unfold IntSpec.Fits; decide) (input_of_bytes (by decide +kernel) (by decide +kernel))

end FastFloat
