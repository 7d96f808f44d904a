import Verif.Proofs.FloatTop
import Verif.Spec.Api
/-
# inf / nan
-/
set_option linter.unusedSimpArgs false
namespace FastFloat
open NumSpec FloatSpec ApiSpec

theorem or_lanes (k a b m M : Nat) (ha : a < 2 ^ k) (hm : m < 2 ^ k) :
    (a + 2 ^ k * b) ||| (m + 2 ^ k * M) = (a ||| m) + 2 ^ k * (b ||| M) := by
  have hor := Nat.or_lt_two_pow ha hm
  rw [Nat.add_comm a, Nat.add_comm m, Nat.add_comm (a ||| m), Nat.two_pow_add_eq_or_of_lt ha, Nat.two_pow_add_eq_or_of_lt hm,
    Nat.two_pow_add_eq_or_of_lt hor]
  apply Nat.eq_of_testBit_eq
  intro i
  simp only [Nat.testBit_or, Nat.testBit_two_pow_mul]
  cases decide (k ≤ i) <;> cases a.testBit i <;> cases m.testBit i <;> simp

theorem leWord_or (w : Nat) (hw : 0 < w) (l : List Nat) (hl : ∀ u ∈ l, u < 2 ^ (8 * w)) :
    leWord w l ||| leWord w (List.replicate l.length 32) = leWord w (l.map (· ||| 32)) := by
  induction l with
  | nil => simp [leWord]
  | cons a l ih =>
    simp only [leWord, List.length_cons, List.replicate_succ, List.map_cons]
    have h32 : 32 < 2 ^ (8 * w) := lt_of_lt_of_le (by norm_num : 32 < 2 ^ 8) (Nat.pow_le_pow_right (by norm_num) (by omega))
    rw [or_lanes _ _ _ _ _ (hl a (by simp)) h32, ih (fun u hu => hl u (by simp [hu]))]

theorem leWord_inj_iff (w : Nat) (a b : List Nat) (h : a.length = b.length) (ha : ∀ u ∈ a, u < 2 ^ (8 * w)) (hb : ∀ u ∈ b, u < 2 ^ (8 * w)) :
    leWord w a = leWord w b ↔ a = b := by
  induction a generalizing b with
  | nil => cases b with
    | nil => simp
    | cons x b => simp at h
  | cons x a ih => cases b with
    | nil => simp at h
    | cons y b =>
      have hx := ha x (by simp)
      have hy := hb y (by simp)
      simp only [leWord, List.cons.injEq]
      have := ih b (by simpa using h) (fun u hu => ha u (by simp [hu])) (fun u hu => hb u (by simp [hu]))
      rw [← this]
      constructor
      · intro e
        have h1 := congrArg (· % 2 ^ (8 * w)) e
        simp only [Nat.add_mul_mod_self_left, Nat.mod_eq_of_lt hx, Nat.mod_eq_of_lt hy] at h1
        refine ⟨h1, ?_⟩
        rw [h1] at e
        have e := Nat.add_left_cancel e
        exact Nat.eq_of_mul_eq_mul_left (Nat.two_pow_pos _) e
      · rintro ⟨rfl, e⟩; rw [e]

theorem leWord_append (w : Nat) (a b : List Nat) : leWord w (a ++ b) = leWord w a + 2 ^ (8 * w * a.length) * leWord w b := by
  induction a with
  | nil => simp [leWord]
  | cons x a ih =>
    simp only [List.cons_append, leWord, ih, List.length_cons, Nat.mul_add, Nat.mul_one, pow_add]
    ring

theorem leWord_zeros (w n : Nat) : leWord w (List.replicate n 0) = 0 := by
  induction n with
  | zero => rfl
  | succ n ih => simp [List.replicate_succ, leWord, ih]

/-- The padded block as a list of lanes. -/
def padded (c : Cfg) (w : Nat) (a : List Nat) : List Nat :=
  if c.bigEndian then List.replicate (8 / w - a.length) 0 ++ a.reverse else a ++ List.replicate (8 / w - a.length) 0

theorem memWordPad_eq (c : Cfg) {w : Nat} (hw : w = 1 ∨ w = 2 ∨ w = 4) (a : List Nat) (ha : a.length ≤ 8 / w) :
    memWordPad c w a = leWord w (padded c w a) := by
  unfold memWordPad padded
  by_cases h : c.bigEndian = true
  · rw [if_pos h, if_pos h, leWord_append, leWord_zeros, Nat.zero_add, List.length_replicate]
    have e : 8 * w * (8 / w - a.length) = 64 - 8 * w * a.length := by
      rcases hw with rfl | rfl | rfl <;> omega
    rw [e, Nat.mul_comm]; rfl
  · rw [if_neg h, if_neg h, leWord_append, leWord_zeros]; simp

theorem padded_length (c : Cfg) (w : Nat) (a : List Nat) (ha : a.length ≤ 8 / w) : (padded c w a).length = 8 / w := by
  unfold padded
  split <;> simp <;> omega

theorem padded_lt (c : Cfg) (w : Nat) (a : List Nat) (h : ∀ u ∈ a, u < 2 ^ (8 * w)) : ∀ u ∈ padded c w a, u < 2 ^ (8 * w) := by
  intro u hu
  unfold padded at hu
  split at hu
  · rw [List.mem_append] at hu
    rcases hu with hu | hu
    · rw [List.eq_of_mem_replicate hu]; exact Nat.two_pow_pos _
    · exact h u (by simpa using hu)
  · rw [List.mem_append] at hu
    rcases hu with hu | hu
    · exact h u hu
    · rw [List.eq_of_mem_replicate hu]; exact Nat.two_pow_pos _

theorem caseMask_eq {w : Nat} (hw : w = 1 ∨ w = 2 ∨ w = 4) : caseMask w = leWord w (List.replicate (8 / w) 32) := by
  rcases hw with rfl | rfl | rfl <;> decide +kernel

theorem padMask (c : Cfg) {w : Nat} (hw : w = 1 ∨ w = 2 ∨ w = 4) (a : List Nat) (ha : a.length ≤ 8 / w) (h : ∀ u ∈ a, u < 2 ^ (8 * w)) :
    memWordPad c w a ||| caseMask w = leWord w ((padded c w a).map (· ||| 32)) := by
  rw [memWordPad_eq c hw a ha, caseMask_eq hw]
  conv_lhs => rw [← padded_length c w a ha]
  exact leWord_or w (by omega) _ (padded_lt c w a h)

theorem or32_lt {w : Nat} (hw : 0 < w) {u : Nat} (h : u < 2 ^ (8 * w)) : u ||| 32 < 2 ^ (8 * w) :=
  Nat.or_lt_two_pow h (lt_of_lt_of_le (by norm_num : 32 < 2 ^ 8) (Nat.pow_le_pow_right (by norm_num) (by omega)))

theorem padded_map_inj (c : Cfg) (w : Nat) (a b : List Nat) (h : a.length = b.length) (f : Nat → Nat) :
    (padded c w a).map f = (padded c w b).map f ↔ a.map f = b.map f := by
  unfold padded
  rw [h]
  split
  · rw [List.map_append, List.map_append, List.append_right_inj, List.map_reverse, List.map_reverse, List.reverse_inj]
  · rw [List.map_append, List.map_append, List.append_left_inj]

/-- Masked comparison of two blocks. -/
theorem maskCmp (c : Cfg) {w : Nat} (hw : w = 1 ∨ w = 2 ∨ w = 4) (a b : List Nat) (hl : a.length = b.length) (hb : a.length ≤ 8 / w)
    (h1 : ∀ u ∈ a, u < 2 ^ (8 * w)) (h2 : ∀ u ∈ b, u < 2 ^ (8 * w)) :
    (memWordPad c w a ||| caseMask w = memWordPad c w b ||| caseMask w) ↔ a.map (· ||| 32) = b.map (· ||| 32) := by
  rw [padMask c hw a hb h1, padMask c hw b (by omega) h2, leWord_inj_iff _ _ _ (by simp [padded_length c w a hb, padded_length c w b (by omega)]), padded_map_inj c w a b hl]
  · intro u hu
    obtain ⟨v, hv, rfl⟩ := List.mem_map.1 hu
    exact or32_lt (by omega) (padded_lt c w a h1 v hv)
  · intro u hu
    obtain ⟨v, hv, rfl⟩ := List.mem_map.1 hu
    exact or32_lt (by omega) (padded_lt c w b h2 v hv)

/-- Masked comparison of a full block with a literal. -/
theorem maskCmpLit (c : Cfg) {w : Nat} (hw : w = 1 ∨ w = 2 ∨ w = 4) (a b : List Nat) (hl : a.length = b.length) (hb : a.length = 8 / w)
    (h1 : ∀ u ∈ a, u < 2 ^ (8 * w)) (h2 : ∀ u ∈ b, u < 2 ^ (8 * w)) (h3 : b.map (· ||| 32) = b) :
    (memWordPad c w a ||| caseMask w = memWordPad c w b) ↔ a.map (· ||| 32) = b := by
  have e : memWordPad c w b ||| caseMask w = memWordPad c w b := by
    rw [padMask c hw b (by omega) h2, memWordPad_eq c hw b (by omega)]
    congr 1
    unfold padded
    have : 8 / w - b.length = 0 := by omega
    rw [this]
    split <;> simp [h3]
  rw [← e, maskCmp c hw a b hl (by omega) h1 h2, h3]

theorem caseLoop_eq (a b : List Nat) (h : a.length = b.length) : caseLoop a b = decide (a.map (· ||| 32) = b) := by
  induction a generalizing b with
  | nil => cases b with
    | nil => simp [caseLoop]
    | cons y b => simp at h
  | cons x a ih => cases b with
    | nil => simp at h
    | cons y b =>
      simp only [caseLoop, List.map_cons, List.cons.injEq]
      rw [ih b (by simpa using h)]
      by_cases hxy : x ||| 32 = y <;> simp [hxy]

theorem or32_letter_small : ∀ u < 128, ∀ e < 128, 97 ≤ e → e ≤ 122 → (u ||| 32 = e ↔ lower u = e) := by decide +kernel

theorem or32_letter {u e : Nat} (h1 : 97 ≤ e) (h2 : e ≤ 122) : u ||| 32 = e ↔ lower u = e := by
  rcases Nat.lt_or_ge u 128 with h | h
  · exact or32_letter_small u h e (by omega) h1 h2
  · have h3 : u ≤ u ||| 32 := Nat.left_le_or
    constructor
    · intro h4; omega
    · unfold lower; split <;> intro h4 <;> omega

/-- Lower-case letters. -/
def Letters (e : List Nat) : Prop := ∀ u ∈ e, 97 ≤ u ∧ u ≤ 122

theorem map_or32 {a e : List Nat} (he : Letters e) : a.map (· ||| 32) = e ↔ a.map lower = e := by
  induction a generalizing e with
  | nil => simp
  | cons x a ih => cases e with
    | nil => simp
    | cons y e =>
      simp only [List.map_cons, List.cons.injEq]
      rw [ih (fun u hu => he u (by simp [hu])), or32_letter (he y (by simp)).1 (he y (by simp)).2]

theorem letters_or32 {e : List Nat} (he : Letters e) : e.map (· ||| 32) = e := by
  rw [map_or32 he]
  have : e.map lower = e.map id := by
    apply List.map_congr_left
    intro u hu
    have := he u hu
    unfold lower; rw [if_neg (by omega)]; rfl
  rw [this, List.map_id]

theorem map_split3 (f : Nat → Nat) (a e : List Nat) (ha : a.length = 3) (he : e.length = 3) :
    a.map f = e ↔ (a.take 2).map f = e.take 2 ∧ f ((a.drop 2).headD 0) = (e.drop 2).headD 0 := by
  match a, e, ha, he with
  | [a, b, c], [x, y, z], _, _ => simp [and_assoc]

theorem map_split5 (f : Nat → Nat) (a e : List Nat) (ha : a.length = 5) (he : e.length = 5) :
    (a.map f = e ↔ (a.take 4).map f = e.take 4 ∧ f ((a.drop 4).headD 0) = (e.drop 4).headD 0) ∧
    (a.map f = e ↔ (a.take 2).map f = e.take 2 ∧ ((a.drop 2).take 2).map f = (e.drop 2).take 2 ∧
      f ((a.drop 4).headD 0) = (e.drop 4).headD 0) := by
  match a, e, ha, he with
  | [a, b, c, d, g], [x, y, z, u, v], _, _ => simp [and_assoc]

theorem letters_lt {e : List Nat} (he : Letters e) {w : Nat} (hw : 0 < w) : ∀ u ∈ e, u < 2 ^ (8 * w) := by
  intro u hu
  have := he u hu
  exact lt_of_lt_of_le (by omega : u < 2 ^ 8) (Nat.pow_le_pow_right (by norm_num) (by omega))

theorem Letters.take {e : List Nat} (he : Letters e) (n : Nat) : Letters (e.take n) := fun u hu => he u (List.mem_of_mem_take hu)
theorem Letters.drop {e : List Nat} (he : Letters e) (n : Nat) : Letters (e.drop n) := fun u hu => he u (List.mem_of_mem_drop hu)

theorem strncasecmp3_eq (c : Cfg) {ct : CharType} (hw : ct.WF) {p e : List Nat} (hp : 3 ≤ p.length) (hu : ∀ u ∈ p, u < 2 ^ (8 * ct.width))
    (he : Letters e) (hl : e.length = 3) : strncasecmp3 c ct p e = .ok (decide ((p.take 3).map lower = e)) := by
  have hla : (p.take 3).length = 3 := by rw [List.length_take]; omega
  have hua : ∀ u ∈ p.take 3, u < 2 ^ (8 * ct.width) := fun u h => hu u (List.mem_of_mem_take h)
  unfold strncasecmp3 readBlock
  rw [if_pos hp]
  simp only
  obtain ⟨a, hae⟩ : ∃ a, p.take 3 = a := ⟨_, rfl⟩
  rw [hae] at hla hua ⊢
  have key : decide (a.map lower = e) = decide (a.map (· ||| 32) = e) := decide_eq_decide.2 (map_or32 he).symm
  rw [key]
  by_cases hc : c.constEval = true
  · rw [if_pos hc, caseLoop_eq _ _ (by omega)]
  · rw [if_neg hc]
    by_cases h4 : ct.width = 4
    · rw [if_pos h4]
      rw [h4] at hua
      congr 1
      have hm := maskCmpLit c (w := 4) (by simp) (a.take 2) (e.take 2) (by simp; omega) (by simp; omega)
        (fun u h => hua u (List.mem_of_mem_take h)) (letters_lt (he.take 2) (by norm_num)) (letters_or32 (he.take 2))
      have hs := map_split3 (· ||| 32) a e hla hl
      by_cases hq : memWordPad c 4 (a.take 2) ||| caseMask 4 = memWordPad c 4 (e.take 2)
      · rw [if_neg (by simpa using hq)]
        have := hm.1 hq
        by_cases hz : (a.drop 2).headD 0 ||| 32 = (e.drop 2).headD 0
        · rw [decide_eq_true (hs.2 ⟨this, hz⟩)]; simpa using hz
        · rw [decide_eq_false (fun h => hz (hs.1 h).2)]; simpa using hz
      · rw [if_pos (by simpa using hq), decide_eq_false (fun h => hq (hm.2 (hs.1 h).1))]
    · rw [if_neg h4]
      have hw' : ct.width = 1 ∨ ct.width = 2 := by have := hw.1; omega
      congr 1
      have hm := maskCmp c (w := ct.width) (by omega) a e (by omega)
        (by rw [hla]; rcases hw' with h | h <;> rw [h] <;> norm_num) hua (letters_lt he (by omega))
      rw [letters_or32 he] at hm
      by_cases hq : a.map (· ||| 32) = e
      · rw [decide_eq_true hq]; simpa using hm.2 hq
      · rw [decide_eq_false hq]; simpa using fun h => hq (hm.1 h)

theorem strncasecmp5_eq (c : Cfg) {ct : CharType} (hw : ct.WF) {p e : List Nat} (hp : 5 ≤ p.length) (hu : ∀ u ∈ p, u < 2 ^ (8 * ct.width))
    (he : Letters e) (hl : e.length = 5) : strncasecmp5 c ct p e = .ok (decide ((p.take 5).map lower = e)) := by
  have hla : (p.take 5).length = 5 := by rw [List.length_take]; omega
  have hua : ∀ u ∈ p.take 5, u < 2 ^ (8 * ct.width) := fun u h => hu u (List.mem_of_mem_take h)
  unfold strncasecmp5 readBlock
  rw [if_pos hp]
  simp only
  obtain ⟨a, hae⟩ : ∃ a, p.take 5 = a := ⟨_, rfl⟩
  rw [hae] at hla hua ⊢
  have key : decide (a.map lower = e) = decide (a.map (· ||| 32) = e) := decide_eq_decide.2 (map_or32 he).symm
  rw [key]
  have hs := map_split5 (· ||| 32) a e hla hl
  by_cases hc : c.constEval = true
  · rw [if_pos hc, caseLoop_eq _ _ (by omega)]
  · rw [if_neg hc]
    by_cases h1 : ct.width = 1
    · rw [if_pos h1]
      rw [h1] at hua
      congr 1
      have hm := maskCmp c (w := 1) (by simp) a e (by omega) (by omega) hua (letters_lt he (by omega))
      rw [letters_or32 he] at hm
      by_cases hq : a.map (· ||| 32) = e
      · rw [decide_eq_true hq]; simpa using hm.2 hq
      · rw [decide_eq_false hq]; simpa using fun h => hq (hm.1 h)
    · rw [if_neg h1]
      by_cases h2 : ct.width = 2
      · rw [if_pos h2]
        rw [h2] at hua
        congr 1
        have hm := maskCmpLit c (w := 2) (by simp) (a.take 4) (e.take 4) (by simp; omega) (by simp; omega)
          (fun u h => hua u (List.mem_of_mem_take h)) (letters_lt (he.take 4) (by norm_num)) (letters_or32 (he.take 4))
        by_cases hq : memWordPad c 2 (a.take 4) ||| caseMask 2 = memWordPad c 2 (e.take 4)
        · rw [if_neg (by simpa using hq)]
          have := hm.1 hq
          by_cases hz : (a.drop 4).headD 0 ||| 32 = (e.drop 4).headD 0
          · rw [decide_eq_true (hs.1.2 ⟨this, hz⟩)]; simpa using hz
          · rw [decide_eq_false (fun h => hz (hs.1.1 h).2)]; simpa using hz
        · rw [if_pos (by simpa using hq), decide_eq_false (fun h => hq (hm.2 (hs.1.1 h).1))]
      · rw [if_neg h2]
        have h4 : ct.width = 4 := by have := hw.1; omega
        rw [h4] at hua
        congr 1
        have hm := maskCmpLit c (w := 4) (by simp) (a.take 2) (e.take 2) (by simp; omega) (by simp; omega)
          (fun u h => hua u (List.mem_of_mem_take h)) (letters_lt (he.take 2) (by norm_num)) (letters_or32 (he.take 2))
        have hm2 := maskCmpLit c (w := 4) (by simp) ((a.drop 2).take 2) ((e.drop 2).take 2) (by simp; omega) (by simp; omega)
          (fun u h => hua u (List.mem_of_mem_drop (List.mem_of_mem_take h))) (letters_lt ((he.drop 2).take 2) (by norm_num)) (letters_or32 ((he.drop 2).take 2))
        by_cases hq : memWordPad c 4 (a.take 2) ||| caseMask 4 = memWordPad c 4 (e.take 2)
        · rw [if_neg (by simpa using hq)]
          by_cases hq2 : memWordPad c 4 ((a.drop 2).take 2) ||| caseMask 4 = memWordPad c 4 ((e.drop 2).take 2)
          · rw [if_neg (by simpa using hq2)]
            by_cases hz : (a.drop 4).headD 0 ||| 32 = (e.drop 4).headD 0
            · rw [decide_eq_true (hs.2.2 ⟨hm.1 hq, hm2.1 hq2, hz⟩)]; simpa using hz
            · rw [decide_eq_false (fun h => hz (hs.2.1 h).2.2)]; simpa using hz
          · rw [if_pos (by simpa using hq2), decide_eq_false (fun h => hq2 (hm2.2 (hs.2.1 h).2.1))]
        · rw [if_pos (by simpa using hq), decide_eq_false (fun h => hq (hm.2 (hs.2.1 h).1))]

theorem startsWith_iff (w s t : List Nat) :
    StartsWith w s t ↔ w.length ≤ s.length ∧ (s.take w.length).map lower = w ∧ t = s.drop w.length := by
  unfold StartsWith
  constructor
  · rintro ⟨v, rfl, hv⟩
    have hl : v.length = w.length := by rw [← hv, List.length_map]
    rw [← hl]
    simp [hv]
  · rintro ⟨h1, h2, rfl⟩
    exact ⟨s.take w.length, (List.take_append_drop _ _).symm, h2⟩

theorem nanChar_eq {ct : CharType} (hw : ct.WF) {u : Nat} (hu : u < 2 ^ (8 * ct.width)) : nanChar ct u = true ↔ NanChar u := by
  unfold nanChar NanChar CharType.toInt
  by_cases h : ct.signed = true ∧ 2 ^ (8 * ct.width - 1) ≤ u
  · rw [if_pos h]
    obtain ⟨_, h⟩ := h
    have h128 : 128 ≤ u := le_trans (Nat.pow_le_pow_right (by norm_num) (by have := hw.1; omega) : 2 ^ 7 ≤ 2 ^ (8 * ct.width - 1)) h
    have hi : (u : Int) < 2 ^ (8 * ct.width) := by exact_mod_cast hu
    obtain ⟨v, hv⟩ : ∃ v : Int, (u : Int) - 2 ^ (8 * ct.width) = v := ⟨_, rfl⟩
    rw [hv]
    have hv0 : v < 0 := by omega
    simp only [Bool.or_eq_true, Bool.and_eq_true, decide_eq_true_eq, beq_iff_eq]
    omega
  · rw [if_neg h]
    simp only [Bool.or_eq_true, Bool.and_eq_true, decide_eq_true_eq, beq_iff_eq]
    omega

theorem nanSeq_iff {ct : CharType} (hw : ct.WF) (t rest : List Nat) (hu : ∀ u ∈ t, u < 2 ^ (8 * ct.width)) :
    nanSeq ct t = some rest ↔ ∃ q, (∀ u ∈ q, NanChar u) ∧ t = q ++ 41 :: rest := by
  induction t with
  | nil => simp [nanSeq]
  | cons a t ih =>
    have ih := ih (fun u h => hu u (by simp [h]))
    have hn := nanChar_eq hw (hu a (by simp))
    unfold nanSeq
    by_cases h1 : a = 41
    · subst h1
      simp only [beq_self_eq_true, if_true, Option.some.injEq]
      constructor
      · rintro rfl; exact ⟨[], by simp, rfl⟩
      · rintro ⟨q, hq, he⟩
        cases q with
        | nil => simpa using he
        | cons b q =>
          have hb := hq b (by simp)
          have he : 41 = b := by simpa using congrArg List.head? he
          subst he
          unfold NanChar at hb; omega
    · rw [if_neg (by simpa using h1)]
      by_cases h2 : nanChar ct a = true
      · rw [if_pos h2, ih]
        constructor
        · rintro ⟨q, hq, rfl⟩
          refine ⟨a :: q, ?_, rfl⟩
          intro u hu
          rcases List.mem_cons.1 hu with rfl | hu
          · exact hn.1 h2
          · exact hq u hu
        · rintro ⟨q, hq, he⟩
          cases q with
          | nil => simp only [List.nil_append, List.cons.injEq] at he; exact absurd he.1 h1
          | cons b q =>
            simp only [List.cons_append, List.cons.injEq] at he
            exact ⟨q, fun u hu => hq u (by simp [hu]), he.2⟩
      · rw [if_neg h2]
        constructor
        · intro h; cases h
        · rintro ⟨q, hq, he⟩
          cases q with
          | nil => simp only [List.nil_append, List.cons.injEq] at he; exact absurd he.1 h1
          | cons b q =>
            simp only [List.cons_append, List.cons.injEq] at he
            rw [he.1] at h2 hn
            exact absurd (hn.2 (hq b (by simp))) h2

/-- What the code strips as a sign. -/
def stripSign (plus : Bool) (s : List Nat) : List Nat :=
  if s.headD 0 = 45 ∨ (plus = true ∧ s.headD 0 = 43) then s.tail else s

theorem stripSign_pos {plus : Bool} {a : Nat} (t : List Nat) (h : a = 45 ∨ (plus = true ∧ a = 43)) : stripSign plus (a :: t) = t := if_pos h
theorem stripSign_neg {plus : Bool} {a : Nat} (t : List Nat) (h : ¬ (a = 45 ∨ (plus = true ∧ a = 43))) : stripSign plus (a :: t) = a :: t := if_neg h

theorem signed_strip (plus : Bool) (s : List Nat) (hs : s ≠ []) : Signed plus s (s.headD 0 == 45) (stripSign plus s) := by
  cases s with
  | nil => exact absurd rfl hs
  | cons a t =>
    unfold Signed
    by_cases h1 : a = 45
    · rw [stripSign_pos t (Or.inl h1)]; subst h1; left; simp
    · by_cases h2 : plus = true ∧ a = 43
      · rw [stripSign_pos t (Or.inr h2)]; obtain ⟨h2, rfl⟩ := h2; right; right; simp [h2]
      · rw [stripSign_neg t (by tauto)]; right; left; simp [h1]

theorem strip_of_signed {plus : Bool} {s t w r : List Nat} {neg : Bool} (h : Signed plus s neg t) (hst : StartsWith w t r)
    (hw : Letters w) (hne : w ≠ []) : stripSign plus s = t ∧ neg = (s.headD 0 == 45) ∧ s ≠ [] := by
  obtain ⟨v, rfl, hv⟩ := hst
  cases v with
  | nil => simp at hv; exact absurd hv hne
  | cons a v =>
    have ha : 97 ≤ lower a := by
      have : lower a ∈ w := by rw [← hv]; simp
      exact (hw _ this).1
    have ha45 : a ≠ 45 ∧ a ≠ 43 := by
      constructor <;> rintro rfl <;> revert ha <;> decide
    rcases h with ⟨rfl, rfl⟩ | ⟨rfl, rfl⟩ | ⟨rfl, hp, rfl⟩
    · simp [stripSign]
    · simp [stripSign, ha45]
    · simp [stripSign, hp]

theorem letters_nan : Letters wNan := by unfold Letters wNan; decide
theorem letters_inf : Letters wInf := by unfold Letters wInf; decide
theorem letters_inity : Letters wInity := by unfold Letters wInity; decide

/-- The bits of a signed infinity. -/
def infBits (F : BinFmt) (neg : Bool) : Nat := if neg then fpNeg F (infIdx F) else infIdx F
/-- The bits of a signed NaN. -/
def nanBits (F : BinFmt) (neg : Bool) : Nat := if neg then fpNeg F (quietNaN F) else quietNaN F

/-- After the sign. -/
theorem parseInfnan_eq (c : Cfg) {ct : CharType} (hw : ct.WF) (F : BinFmt) {s : List Nat} (hs : s ≠ []) (fmt : Fmt)
    (hu : ∀ u ∈ s, u < 2 ^ (8 * ct.width)) :
    parseInfnan c ct F s fmt = .ok (
      let p := stripSign (fmt.has Fmt.allowLeadingPlus) s
      let neg := s.headD 0 == 45
      if 3 ≤ p.length then
        if (p.take 3).map lower = wNan then
          ⟨if peekIs (p.drop 3) 40 then (nanSeq ct ((p.drop 3).drop 1)).getD (p.drop 3) else p.drop 3, .ok, some (nanBits F neg)⟩
        else if (p.take 3).map lower = wInf then
          ⟨if 8 ≤ p.length ∧ ((p.drop 3).take 5).map lower = wInity then p.drop 8 else p.drop 3, .ok, some (infBits F neg)⟩
        else ⟨s, .invalidArgument, none⟩
      else ⟨s, .invalidArgument, none⟩) := by
  cases s with
  | nil => exact absurd rfl hs
  | cons a t =>
    unfold parseInfnan
    rw [show deref (a :: t) = .ok a from rfl, ok_bind]
    obtain ⟨plus, hplus⟩ : ∃ plus, fmt.has Fmt.allowLeadingPlus = plus := ⟨_, rfl⟩
    rw [hplus]
    have hp : infnanSign (a :: t) a fmt = .ok (stripSign plus (a :: t)) := by
      unfold infnanSign chMinus chPlus
      rw [hplus]
      by_cases h : a = 45 ∨ (plus = true ∧ a = 43)
      · rw [stripSign_pos t h, if_pos (by simpa using h)]; rfl
      · rw [stripSign_neg t h, if_neg (by simpa using h)]; rfl
    rw [hp, ok_bind]
    have hup : ∀ u ∈ stripSign plus (a :: t), u < 2 ^ (8 * ct.width) := by
      intro u h
      apply hu
      unfold stripSign at h
      split at h
      · exact List.mem_cons_of_mem _ h
      · exact h
    obtain ⟨p, hpe⟩ : ∃ p, stripSign plus (a :: t) = p := ⟨_, rfl⟩
    rw [hpe] at hup ⊢
    simp only [List.headD_cons]
    rw [show (a == chMinus) = (a == 45) from rfl]
    by_cases h3 : 3 ≤ p.length
    · rw [if_pos h3, if_pos h3]
      rw [strncasecmp3_eq c hw h3 hup (show Letters strNan from letters_nan) rfl, ok_bind]
      by_cases hn : (p.take 3).map lower = wNan
      · rw [if_pos hn, if_pos (decide_eq_true (by exact hn)), skipN_ok h3, ok_bind]
        rfl
      · rw [if_neg hn, if_neg (by rw [decide_eq_true_eq]; exact hn)]
        rw [strncasecmp3_eq c hw h3 hup (show Letters (strInf.take 3) from letters_inf) rfl, ok_bind]
        by_cases hi : (p.take 3).map lower = wInf
        · rw [if_pos hi, if_pos (decide_eq_true (by exact hi))]
          have hend : infinityEnd c ct p = .ok (if 8 ≤ p.length ∧ ((p.drop 3).take 5).map lower = wInity then p.drop 8 else p.drop 3) := by
            unfold infinityEnd
            by_cases h8 : 8 ≤ p.length
            · rw [if_pos h8, skipN_ok h3, ok_bind]
              rw [strncasecmp5_eq c hw (by rw [List.length_drop]; omega) (fun u h => hup u (List.mem_of_mem_drop h))
                (show Letters (strInf.drop 3) from letters_inity) rfl, ok_bind]
              by_cases h5 : ((p.drop 3).take 5).map lower = wInity
              · rw [if_pos (decide_eq_true (by exact h5)), skipN_ok h8, if_pos ⟨h8, h5⟩]
              · rw [if_neg (by rw [decide_eq_true_eq]; exact h5), if_neg (by tauto)]
            · rw [if_neg h8, if_neg (by tauto), skipN_ok h3]
          rw [hend, ok_bind]; rfl
        · rw [if_neg hi, if_neg (by rw [decide_eq_true_eq]; exact hi)]; rfl
    · rw [if_neg h3, if_neg h3]; rfl

theorem take3_inf_ne_nan : wInf ≠ wNan := by decide

/-- Infinity is recognised. -/
theorem parseInfnan_inf (c : Cfg) {ct : CharType} (hw : ct.WF) (F : BinFmt) {s : List Nat} (fmt : Fmt)
    (hu : ∀ u ∈ s, u < 2 ^ (8 * ct.width)) {neg : Bool} {rest : List Nat} (h : InfText (fmt.has Fmt.allowLeadingPlus) s neg rest) :
    parseInfnan c ct F s fmt = .ok ⟨rest, .ok, some (infBits F neg)⟩ := by
  obtain ⟨t, r, h1, h2, h3⟩ := h
  obtain ⟨e1, e2, e3⟩ := strip_of_signed h1 h2 letters_inf (by decide)
  rw [parseInfnan_eq c hw F e3 fmt hu, e1, ← e2]
  obtain ⟨l1, l2, l3⟩ := (startsWith_iff _ _ _).1 h2
  have l1 : 3 ≤ t.length := l1
  have l2 : (t.take 3).map lower = wInf := l2
  have l3 : r = t.drop 3 := l3
  simp only
  rw [if_pos l1, if_neg (by rw [l2]; decide), if_pos l2]
  have hlen : r.length = t.length - 3 := by rw [l3, List.length_drop]
  rcases h3 with h3 | ⟨h3, rfl⟩
  · obtain ⟨m1, m2, m3⟩ := (startsWith_iff _ _ _).1 h3
    have m1 : 5 ≤ r.length := m1
    have m2 : (r.take 5).map lower = wInity := m2
    have m3 : rest = r.drop 5 := m3
    rw [if_pos ⟨by omega, by rw [← l3]; exact m2⟩, m3, l3, List.drop_drop]
  · rw [if_neg, l3]
    rintro ⟨m1, m2⟩
    apply h3
    exact ⟨_, (startsWith_iff wInity rest (rest.drop 5)).2 ⟨(by show 5 ≤ rest.length; omega), (by rw [l3]; exact m2), rfl⟩⟩

theorem nan_peek {ct : CharType} (hw : ct.WF) (r : List Nat) (hu : ∀ u ∈ r, u < 2 ^ (8 * ct.width)) {rest : List Nat} (h : Paren r rest) :
    (if peekIs r 40 then (nanSeq ct (r.drop 1)).getD r else r) = rest := by
  obtain ⟨q, hq, rfl⟩ := h
  have := (nanSeq_iff hw (q ++ 41 :: rest) rest (fun u h => hu u (by simp at h ⊢; tauto))).2 ⟨q, hq, rfl⟩
  simp [peekIs, this]

theorem nan_peek' {ct : CharType} (hw : ct.WF) (r : List Nat) (hu : ∀ u ∈ r, u < 2 ^ (8 * ct.width)) (h : ¬ ∃ q, Paren r q) :
    (if peekIs r 40 then (nanSeq ct (r.drop 1)).getD r else r) = r := by
  cases r with
  | nil => rfl
  | cons a r =>
    by_cases ha : a = 40
    · subst ha
      cases hs : nanSeq ct r with
      | none => simp [peekIs, hs]
      | some x =>
        exfalso
        obtain ⟨q, hq, e⟩ := (nanSeq_iff hw r x (fun u h => hu u (by simp [h]))).1 hs
        exact h ⟨x, q, hq, by rw [e]⟩
    · simp [peekIs, ha]

/-- NaN is recognised. -/
theorem parseInfnan_nan (c : Cfg) {ct : CharType} (hw : ct.WF) (F : BinFmt) {s : List Nat} (fmt : Fmt)
    (hu : ∀ u ∈ s, u < 2 ^ (8 * ct.width)) {neg : Bool} {rest : List Nat} (h : NanText (fmt.has Fmt.allowLeadingPlus) s neg rest) :
    parseInfnan c ct F s fmt = .ok ⟨rest, .ok, some (nanBits F neg)⟩ := by
  obtain ⟨t, r, h1, h2, h3⟩ := h
  obtain ⟨e1, e2, e3⟩ := strip_of_signed h1 h2 letters_nan (by decide)
  rw [parseInfnan_eq c hw F e3 fmt hu, e1, ← e2]
  obtain ⟨l1, l2, l3⟩ := (startsWith_iff _ _ _).1 h2
  have l1 : 3 ≤ t.length := l1
  have l2 : (t.take 3).map lower = wNan := l2
  have l3 : r = t.drop 3 := l3
  simp only
  rw [if_pos l1, if_pos l2, ← l3]
  have hur : ∀ u ∈ r, u < 2 ^ (8 * ct.width) := by
    intro u h
    apply hu
    rw [l3] at h
    have := List.mem_of_mem_drop h
    rw [← e1] at this
    unfold stripSign at this
    split at this
    · exact List.mem_of_mem_tail this
    · exact this
  rcases h3 with h3 | ⟨h3, rfl⟩
  · rw [nan_peek hw r hur h3]
  · rw [nan_peek' hw rest hur h3]

/-- Nothing else is. -/
theorem parseInfnan_none (c : Cfg) {ct : CharType} (hw : ct.WF) (F : BinFmt) {s : List Nat} (hs : s ≠ []) (fmt : Fmt)
    (hu : ∀ u ∈ s, u < 2 ^ (8 * ct.width)) (h1 : ¬ ∃ neg rest, InfText (fmt.has Fmt.allowLeadingPlus) s neg rest)
    (h2 : ¬ ∃ neg rest, NanText (fmt.has Fmt.allowLeadingPlus) s neg rest) :
    parseInfnan c ct F s fmt = .ok ⟨s, .invalidArgument, none⟩ := by
  rw [parseInfnan_eq c hw F hs fmt hu]
  have hsg := signed_strip (fmt.has Fmt.allowLeadingPlus) s hs
  obtain ⟨p, hp⟩ : ∃ p, stripSign (fmt.has Fmt.allowLeadingPlus) s = p := ⟨_, rfl⟩
  rw [hp] at hsg ⊢
  simp only
  by_cases h3 : 3 ≤ p.length
  · rw [if_pos h3, if_neg, if_neg]
    · intro h
      apply h1
      have hst := (startsWith_iff wInf p (p.drop 3)).2 ⟨h3, h, rfl⟩
      by_cases hq : ∃ q, StartsWith wInity (p.drop 3) q
      · obtain ⟨q, hq⟩ := hq; exact ⟨_, q, p, _, hsg, hst, Or.inl hq⟩
      · exact ⟨_, _, p, _, hsg, hst, Or.inr ⟨hq, rfl⟩⟩
    · intro h
      apply h2
      have hst := (startsWith_iff wNan p (p.drop 3)).2 ⟨h3, h, rfl⟩
      by_cases hq : ∃ q, Paren (p.drop 3) q
      · obtain ⟨q, hq⟩ := hq; exact ⟨_, q, p, _, hsg, hst, Or.inl hq⟩
      · exact ⟨_, _, p, _, hsg, hst, Or.inr ⟨hq, rfl⟩⟩
  · rw [if_neg h3]

end FastFloat
