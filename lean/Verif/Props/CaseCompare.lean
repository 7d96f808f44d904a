import Verif.Proofs.InfNan
/-
# C58: the case-insensitive comparison helper `fastfloat_strncasecmp`
-/
set_option linter.unusedSimpArgs false
namespace FastFloat
open ApiSpec

theorem caseConst_eq : ∀ (len : Nat) (p e : List Nat), len ≤ p.length → len ≤ e.length →
    caseConstLoop len p e = .ok (decide ((p.take len).map (· ||| 32) = e.take len)) := by
  intro len
  induction len with
  | zero => intro p e _ _; simp [caseConstLoop]
  | succ len ih =>
    intro p e hp he
    match p, e, hp, he with
    | a :: p, b :: e, hp, he =>
      unfold caseConstLoop
      simp only [List.take_succ_cons, List.map_cons, List.cons.injEq]
      by_cases h : a ||| 32 = b
      · rw [if_neg (by simpa using h), ih p e (by simpa using hp) (by simpa using he)]
        simp [h]
      · rw [if_pos (by simpa using h)]; simp [h]

theorem caseCmp_eq (c : Cfg) {w : Nat} (hw : w = 1 ∨ w = 2 ∨ w = 4) : ∀ (fuel sz len : Nat) (p e : List Nat), len ≤ fuel → 1 ≤ sz → sz ≤ 8 / w →
    len ≤ p.length → len ≤ e.length → (∀ u ∈ p, u < 2 ^ (8 * w)) → (∀ u ∈ e, u < 2 ^ (8 * w)) →
    caseCmpLoop c w fuel sz len p e = .ok (decide ((p.take len).map (· ||| 32) = (e.take len).map (· ||| 32))) := by
  intro fuel
  induction fuel with
  | zero =>
    intro sz len p e h1 _ _ _ _ _ _
    obtain rfl : len = 0 := by omega
    simp [caseCmpLoop]
  | succ fuel ih =>
    intro sz len p e h1 h2 h3 h4 h5 hup hue
    unfold caseCmpLoop
    by_cases h0 : len = 0
    · rw [if_pos h0]; subst h0; simp
    · rw [if_neg h0]
      obtain ⟨k, hk, hk1, hk2, hk3⟩ : ∃ k, (if sz < len then sz else len) = k ∧ 1 ≤ k ∧ k ≤ 8 / w ∧ k ≤ len := by
        refine ⟨_, rfl, ?_⟩
        split <;> omega
      simp only [hk]
      unfold readBlock
      rw [if_pos (show k ≤ p.length by omega), if_pos (show k ≤ e.length by omega)]
      simp only
      have hlp : (p.take k).length = k := by rw [List.length_take]; omega
      have hle : (e.take k).length = k := by rw [List.length_take]; omega
      have hm := maskCmp c hw (p.take k) (e.take k) (by omega) (by omega) (fun u h => hup u (List.mem_of_mem_take h)) (fun u h => hue u (List.mem_of_mem_take h))
      have hsplit : ∀ q : List Nat, len ≤ q.length → (q.take len).map (· ||| 32) = (q.take k).map (· ||| 32) ++ ((q.drop k).take (len - k)).map (· ||| 32) := by
        intro q hq
        rw [← List.map_append]
        congr 1
        have h6 : len = k + (len - k) := by omega
        conv_lhs => rw [h6]
        rw [List.take_add]
      rw [hsplit p h4, hsplit e h5]
      by_cases hq : (p.take k).map (· ||| 32) = (e.take k).map (· ||| 32)
      · rw [if_neg (by rw [not_not]; exact hm.2 hq), ih k (len - k) (p.drop k) (e.drop k) (by omega) hk1 hk2 (by rw [List.length_drop]; omega) (by rw [List.length_drop]; omega)
          (fun u h => hup u (List.mem_of_mem_drop h)) (fun u h => hue u (List.mem_of_mem_drop h)), hq]
        simp only [List.append_right_inj]
      · rw [if_pos (fun h => hq (hm.1 h))]
        congr 1
        symm
        rw [decide_eq_false_iff_not]
        intro h
        exact hq (List.append_inj_left h (by rw [List.length_map, List.length_map, hlp, hle]))

/-- **C58**: comparing `length` characters with an expected string of lower-case letters answers whether they are equal up to the case of ASCII letters - at
compile time and at run time, on every machine, for every character type and every length. -/
theorem C58_case_insensitive (c : Cfg) {ct : CharType} (hw : ct.WF) {actual expected : List Nat} (length : Nat)
    (ha : ∀ u ∈ actual, u < 2 ^ (8 * ct.width)) (he : ∀ u ∈ expected.take length, 97 ≤ u ∧ u ≤ 122) (hu : ∀ u ∈ expected, u < 2 ^ (8 * ct.width))
    (h1 : length ≤ actual.length) (h2 : length ≤ expected.length) :
    strncasecmp c ct actual expected length = .ok (decide ((actual.take length).map lower = expected.take length)) := by
  have key : ((actual.take length).map lower = expected.take length) ↔ (actual.take length).map (· ||| 32) = expected.take length := (map_or32 he).symm
  rw [decide_eq_decide.2 key]
  unfold strncasecmp
  by_cases hc : c.constEval = true
  · rw [if_pos hc]; exact caseConst_eq _ _ _ h1 h2
  · rw [if_neg hc, caseCmp_eq c hw.1 length (8 / ct.width) length actual expected le_rfl
      (by rcases hw.1 with h | h | h <;> rw [h] <;> norm_num) le_rfl h1 h2 ha hu, letters_or32 he]

/-- **C58, any expected string**: at run time the comparison ignores bit 5 of every character; at compile time it ignores bit 5 of the actual characters only.
So the two agree exactly where the expected characters have bit 5 set, and otherwise the compile-time answer is "different". -/
theorem C58_bit_five (c : Cfg) {ct : CharType} (hw : ct.WF) {actual expected : List Nat} (length : Nat)
    (ha : ∀ u ∈ actual, u < 2 ^ (8 * ct.width)) (hu : ∀ u ∈ expected, u < 2 ^ (8 * ct.width))
    (h1 : length ≤ actual.length) (h2 : length ≤ expected.length) :
    ∃ a, strncasecmp c ct actual expected length = .ok a ∧
      (a = true ↔ ∀ i, i < length → ((actual[i]?).getD 0) ||| 32 = (if c.constEval then (expected[i]?).getD 0 else ((expected[i]?).getD 0) ||| 32)) := by
  have hidx : ∀ (f : Nat → Nat) (p e : List Nat) (n : Nat), n ≤ p.length → n ≤ e.length →
      ((p.take n).map (· ||| 32) = (e.take n).map f ↔ ∀ i, i < n → ((p[i]?).getD 0) ||| 32 = f ((e[i]?).getD 0)) := by
    intro f p e n
    induction n generalizing p e with
    | zero => intro _ _; simp
    | succ n ih =>
      intro hp he
      match p, e, hp, he with
      | x :: p, y :: e, hp, he =>
        simp only [List.take_succ_cons, List.map_cons, List.cons.injEq]
        rw [ih p e (by simpa using hp) (by simpa using he)]
        constructor
        · rintro ⟨h0, hs⟩ i hi
          cases i with
          | zero => simpa using h0
          | succ i => simpa using hs i (by omega)
        · intro h
          refine ⟨by simpa using h 0 (by omega), fun i hi => ?_⟩
          simpa using h (i + 1) (by omega)
  unfold strncasecmp
  by_cases hc : c.constEval = true
  · rw [if_pos hc]
    refine ⟨_, caseConst_eq _ _ _ h1 h2, ?_⟩
    rw [decide_eq_true_iff]
    have := hidx id actual expected length h1 h2
    rw [List.map_id] at this
    rw [this]
    simp [hc]
  · rw [if_neg hc]
    refine ⟨_, caseCmp_eq c hw.1 length (8 / ct.width) length actual expected le_rfl
      (by rcases hw.1 with h | h | h <;> rw [h] <;> norm_num) le_rfl h1 h2 ha hu, ?_⟩
    rw [decide_eq_true_iff, hidx (· ||| 32) actual expected length h1 h2]
    simp [hc]

/-- "InFiNiTy a" against "infinity"; the rest of the first string is ignored. -/
example : strncasecmp Cfg.x64 CharType.char [73, 110, 70, 105, 78, 105, 84, 121, 32, 97] [105, 110, 102, 105, 110, 105, 116, 121] 8 = .ok true :=
  C58_case_insensitive Cfg.x64 (by decide) (expected := [105, 110, 102, 105, 110, 105, 116, 121]) 8 (by decide) (by decide) (by decide) (by decide) (by decide)

example : strncasecmp Cfg.x64 CharType.char [73, 110, 71] [105, 110, 102] 3 = .ok false :=
  C58_case_insensitive Cfg.x64 (by decide) (expected := [105, 110, 102]) 3 (by decide) (by decide) (by decide) (by decide) (by decide)

/-- **C58**: an expected string that is not lower case gives different answers at compile time and at run time. -/
theorem C58_upper_case_expected : ∃ c : Cfg, c.constEval = true ∧ strncasecmp c CharType.char [65] [65] 1 = .ok false ∧
    strncasecmp { c with constEval := false } CharType.char [65] [65] 1 = .ok true :=
  ⟨{ Cfg.x64 with constEval := true }, by decide, by decide, by decide⟩

end FastFloat
