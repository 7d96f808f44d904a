import Verif.Proofs.DigitCompNeg
import Verif.Proofs.Swar
/-
# `parse_mantissa`: what it computes on two spans of digits
-/
namespace FastFloat

/-- Drop the leading zeros. -/
def dz (l : List Nat) : List Nat := l.dropWhile (· == 48)

theorem leWord_inj (w : Nat) : ∀ (l r : List Nat), l.length = r.length → (∀ x ∈ l, x < 2 ^ (8 * w)) → (∀ x ∈ r, x < 2 ^ (8 * w)) →
    leWord w l = leWord w r → l = r := by
  intro l
  induction l with
  | nil => intro r h _ _ _; symm; simpa using h.symm
  | cons a l ih =>
    intro r h hl hr he
    cases r with
    | nil => simp at h
    | cons b r =>
      have ha := hl a List.mem_cons_self
      have hb := hr b List.mem_cons_self
      simp only [leWord] at he
      have e1 := (split_lo (leWord w l) ha).1
      have e2 := (split_lo (leWord w l) ha).2
      rw [he, (split_lo _ hb).1] at e1
      rw [he, (split_lo _ hb).2] at e2
      rw [ih r (by simpa using h) (fun x hx => hl x (List.mem_cons_of_mem _ hx)) (fun x hx => hr x (List.mem_cons_of_mem _ hx)) e1.symm, e2]

theorem memWord_inj (c : Cfg) (w : Nat) (l r : List Nat) (h : l.length = r.length) (hl : ∀ x ∈ l, x < 2 ^ (8 * w))
    (hr : ∀ x ∈ r, x < 2 ^ (8 * w)) (he : memWord c w l = memWord c w r) : l = r := by
  unfold memWord at he
  split at he
  · unfold beWord at he
    have := leWord_inj w l.reverse r.reverse (by simpa using h) (by simpa using hl) (by simpa using hr) he
    exact List.reverse_injective this
  · exact leWord_inj w l r h hl hr he

theorem memWord_zeros (c : Cfg) (ct : CharType) (hw : ct.WF) :
    memWord c ct.width (List.replicate (intCmpLen ct) 48) = intCmpZeros ct := by
  unfold intCmpZeros intCmpLen memWord beWord
  rcases hw.1 with h | h | h <;> rw [h] <;> cases c.bigEndian <;> decide

theorem intCmpLen_pos (ct : CharType) (hw : ct.WF) : 1 ≤ intCmpLen ct := by
  unfold intCmpLen
  rcases hw.1 with h | h | h <;> rw [h] <;> decide

theorem IsDig.ltw {c : Nat} (h : IsDig c) (ct : CharType) (hw : ct.WF) : c < 2 ^ (8 * ct.width) := by
  have := h.lt256
  refine lt_of_lt_of_le this ?_
  have : 1 ≤ ct.width := by rcases hw.1 with h | h | h <;> omega
  calc 256 = 2 ^ (8 * 1) := by norm_num
    _ ≤ _ := Nat.pow_le_pow_right (by norm_num) (by omega)

/-- The 8-byte zero test is exact on digits. -/
theorem zeroBlock_iff (c : Cfg) (ct : CharType) (hw : ct.WF) (p : List Nat) (hp : intCmpLen ct ≤ p.length) (h : ∀ x ∈ p, IsDig x) :
    memWord c ct.width (p.take (intCmpLen ct)) = intCmpZeros ct ↔ p.take (intCmpLen ct) = List.replicate (intCmpLen ct) 48 := by
  constructor
  · intro he
    rw [← memWord_zeros c ct hw] at he
    refine memWord_inj c ct.width _ _ (by rw [List.length_take, List.length_replicate]; omega) ?_ ?_ he
    · intro x hx; exact (h x (List.mem_of_mem_take hx)).ltw ct hw
    · intro x hx
      rw [List.eq_of_mem_replicate hx]
      exact IsDig.ltw ⟨by norm_num, by norm_num⟩ ct hw
  · intro he; rw [he, memWord_zeros c ct hw]

theorem dz_replicate (n : Nat) (l : List Nat) : dz (List.replicate n 48 ++ l) = dz l := by
  induction n with
  | zero => rfl
  | succ n ih => rw [List.replicate_succ, List.cons_append]; unfold dz at *; simp

theorem skipZerosBlocks_eq (c : Cfg) (ct : CharType) (hw : ct.WF) : ∀ (fuel : Nat) (p : List Nat), p.length < fuel →
    (∀ x ∈ p, IsDig x) → ∃ p', skipZerosBlocks c ct fuel p = .ok p' ∧ dz p' = dz p := by
  intro fuel
  induction fuel with
  | zero => intro p h; omega
  | succ fuel ih =>
    intro p hf h
    unfold skipZerosBlocks
    split
    · rename_i hc
      have hlen : intCmpLen ct ≤ p.length := by simp at hc; exact hc.2
      have hpos := intCmpLen_pos ct hw
      simp only [bind, Except.bind, readBlock_ok hlen, pure, Except.pure]
      by_cases he : memWord c ct.width (p.take (intCmpLen ct)) = intCmpZeros ct
      · rw [if_neg (by simpa using he), skipN_ok hlen]
        obtain ⟨p', e1, e2⟩ := ih (p.drop (intCmpLen ct)) (by rw [List.length_drop]; omega) (fun x hx => h x (List.mem_of_mem_drop hx))
        refine ⟨p', e1, ?_⟩
        rw [e2]
        conv_rhs => rw [← List.take_append_drop (intCmpLen ct) p, (zeroBlock_iff c ct hw p hlen h).1 he]
        rw [dz_replicate]
      · rw [if_pos he]; exact ⟨p, rfl, rfl⟩
    · exact ⟨p, rfl, rfl⟩

theorem skipZerosUnits_eq (p : List Nat) : skipZerosUnits p = dz p := by
  induction p with
  | nil => rfl
  | cons a p ih =>
    unfold skipZerosUnits
    by_cases h : a = 48
    · subst h; rw [if_neg (by simp [ch0]), ih]; unfold dz; simp
    · rw [if_pos (by simpa [ch0] using h)]; unfold dz; simp [h]

theorem skipZeros_eq (c : Cfg) (ct : CharType) (hw : ct.WF) (p : List Nat) (h : ∀ x ∈ p, IsDig x) : skipZeros c ct p = .ok (dz p) := by
  obtain ⟨p', e1, e2⟩ := skipZerosBlocks_eq c ct hw (p.length + 1) p (by omega) h
  unfold skipZeros
  simp only [bind, Except.bind, e1, pure, Except.pure, skipZerosUnits_eq, e2]

theorem isTruncatedBlocks_eq (c : Cfg) (ct : CharType) (hw : ct.WF) : ∀ (fuel : Nat) (p : List Nat), p.length < fuel →
    (∀ x ∈ p, IsDig x) → ∃ r, isTruncatedBlocks c ct fuel p = .ok r ∧
      (match r with | none => p.any (· != 48) = true | some q => p.any (· != 48) = q.any (· != 48)) := by
  intro fuel
  induction fuel with
  | zero => intro p h; omega
  | succ fuel ih =>
    intro p hf h
    unfold isTruncatedBlocks
    split
    · rename_i hc
      have hlen : intCmpLen ct ≤ p.length := by simp at hc; exact hc.2
      have hpos := intCmpLen_pos ct hw
      simp only [bind, Except.bind, readBlock_ok hlen, pure, Except.pure]
      by_cases he : memWord c ct.width (p.take (intCmpLen ct)) = intCmpZeros ct
      · rw [if_neg (by simpa using he), skipN_ok hlen]
        obtain ⟨p', e1, e2⟩ := ih (p.drop (intCmpLen ct)) (by rw [List.length_drop]; omega) (fun x hx => h x (List.mem_of_mem_drop hx))
        refine ⟨p', e1, ?_⟩
        have : p.any (· != 48) = (p.drop (intCmpLen ct)).any (· != 48) := by
          conv_lhs => rw [← List.take_append_drop (intCmpLen ct) p, (zeroBlock_iff c ct hw p hlen h).1 he]
          rw [List.any_append]
          simp
        rw [this]; exact e2
      · rw [if_pos he]
        refine ⟨none, rfl, ?_⟩
        rw [zeroBlock_iff c ct hw p hlen h] at he
        by_contra hn
        apply he
        rw [List.eq_replicate_iff]
        refine ⟨by rw [List.length_take]; omega, fun b hb => ?_⟩
        by_contra hb48
        apply hn
        rw [List.any_eq_true]
        exact ⟨b, List.mem_of_mem_take hb, by simpa using hb48⟩
    · exact ⟨some p, rfl, rfl⟩

theorem isTruncated_eq (c : Cfg) (ct : CharType) (hw : ct.WF) (p : List Nat) (h : ∀ x ∈ p, IsDig x) :
    isTruncated c ct p = .ok (p.any (· != 48)) := by
  obtain ⟨r, e1, e2⟩ := isTruncatedBlocks_eq c ct hw (p.length + 1) p (by omega) h
  unfold isTruncated
  simp only [bind, Except.bind, e1, pure, Except.pure]
  cases r with
  | none => simp only at e2; rw [e2]
  | some q => simp only at e2; rw [e2]; rfl

theorem pow_step_lt (c : Cfg) : 10 ^ pmStep c < 2 ^ limbBits c := by
  unfold pmStep limbBits; cases c.limb64 <;> decide

/-- The inner loops of `parse_mantissa` consume `n` digits of `s.p` exactly. -/
structure PMAdv (c : Cfg) (md : Nat) (s s' : PMState) (n : Nat) : Prop where
  len : n ≤ s.p.length
  p : s'.p = s.p.drop n
  value : s'.value = s.value * 10 ^ n + dval (s.p.take n)
  counter : s'.counter = s.counter + n
  digits : s'.digits = s.digits + n
  bound : s'.value < 10 ^ s'.counter
  cstep : s'.counter ≤ pmStep c
  dmd : s'.digits ≤ md

theorem PMAdv.trans {c : Cfg} {md : Nat} {s s' s'' : PMState} {n n' : Nat} (h : PMAdv c md s s' n) (h' : PMAdv c md s' s'' n') :
    PMAdv c md s s'' (n + n') := by
  have hl := h'.len
  rw [h.p, List.length_drop] at hl
  have hl1 := h.len
  refine ⟨by omega, by rw [h'.p, h.p, List.drop_drop], ?_, by rw [h'.counter, h.counter]; omega,
    by rw [h'.digits, h.digits]; omega, h'.bound, h'.cstep, h'.dmd⟩
  rw [h'.value, h.value, h.p, List.take_add, dval_append, List.length_take, List.length_drop, Nat.min_eq_left (by omega)]
  ring

theorem value_step {V v B lb k S C : Nat} (hV : V < 10 ^ C) (hv : v < 10 ^ k) (hC : C + k ≤ S) (hS : 10 ^ S < 2 ^ lb) (hB : B = 10 ^ k) :
    (V * B % 2 ^ lb + v) % 2 ^ lb = V * B + v ∧ V * B + v < 10 ^ (C + k) := by
  subst hB
  have h1 : V * 10 ^ k + v < 10 ^ (C + k) := by
    rw [pow_add]
    have : (V + 1) * 10 ^ k ≤ 10 ^ C * 10 ^ k := Nat.mul_le_mul_right _ hV
    rw [Nat.add_mul] at this
    omega
  have h2 : 10 ^ (C + k) ≤ 10 ^ S := Nat.pow_le_pow_right (by norm_num) hC
  have h3 : V * 10 ^ k + v < 2 ^ lb := by omega
  refine ⟨?_, h1⟩
  rw [Nat.mod_eq_of_lt (show V * 10 ^ k < 2 ^ lb by omega), Nat.mod_eq_of_lt h3]

theorem pmEightLoop_spec (c : Cfg) (ct : CharType) (md : Nat) : ∀ (fuel : Nat) (s : PMState), s.p.length < fuel →
    (∀ x ∈ s.p, IsDig x) → s.value < 10 ^ s.counter → s.counter ≤ pmStep c → s.digits ≤ md →
    ∃ s' n, pmEightLoop c ct (pmStep c) md fuel s = .ok s' ∧ PMAdv c md s s' n := by
  intro fuel
  induction fuel with
  | zero => intro s h; omega
  | succ fuel ih =>
    intro s hf h hb hc hd
    unfold pmEightLoop
    by_cases hcond : s.p.length ≥ 8 ∧ pmStep c - s.counter ≥ 8 ∧ md - s.digits ≥ 8
    · rw [if_pos hcond]
      obtain ⟨c1, c2, c3⟩ := hcond
      have hdig : ∀ x ∈ s.p.take 8, IsDig x := fun x hx => h x (List.mem_of_mem_take hx)
      simp only [bind, Except.bind, parseEightAt_eq c ct s.p c1 hdig, skipN_ok c1]
      have hlt := dval_lt hdig
      rw [List.length_take, Nat.min_eq_left c1] at hlt
      obtain ⟨v1, v2⟩ := value_step (B := 100000000) (lb := limbBits c) hb hlt (show s.counter + 8 ≤ pmStep c by omega) (pow_step_lt c) (by norm_num)
      rw [v1]
      obtain ⟨s', n, e, A⟩ := ih ⟨s.p.drop 8, s.value * 100000000 + dval (s.p.take 8), s.counter + 8, s.digits + 8⟩ (by simp only [List.length_drop]; omega) (fun x hx => h x (List.mem_of_mem_drop hx)) v2
        (by simp only; omega) (by simp only; omega)
      refine ⟨s', 8 + n, e, PMAdv.trans (s' := ⟨s.p.drop 8, s.value * 100000000 + dval (s.p.take 8), s.counter + 8, s.digits + 8⟩) ⟨c1, rfl, rfl, rfl, rfl, v2, by simp only; omega, by simp only; omega⟩ A⟩
    · rw [if_neg hcond]
      exact ⟨s, 0, rfl, by omega, by simp, by simp [dval, dvalFrom], rfl, rfl, hb, hc, hd⟩

theorem pmOneLoop_spec (c : Cfg) (md : Nat) : ∀ (fuel : Nat) (s : PMState), s.p.length < fuel →
    (∀ x ∈ s.p, IsDig x) → s.value < 10 ^ s.counter → s.counter ≤ pmStep c → s.digits ≤ md →
    ∃ s' n, pmOneLoop c (pmStep c) md fuel s = .ok s' ∧ PMAdv c md s s' n ∧
      (s'.p = [] ∨ s'.counter = pmStep c ∨ s'.digits = md) := by
  intro fuel
  induction fuel with
  | zero => intro s h; omega
  | succ fuel ih =>
    intro s hf h hb hc hd
    unfold pmOneLoop
    have triv : PMAdv c md s s 0 := ⟨by omega, by simp, by simp [dval, dvalFrom], rfl, rfl, hb, hc, hd⟩
    cases hp : s.p with
    | nil => exact ⟨s, 0, rfl, triv, Or.inl hp⟩
    | cons ch p' =>
      simp only
      rw [hp] at h hf
      by_cases hcond : s.counter < pmStep c ∧ s.digits < md
      · rw [if_pos hcond]
        have hch := h ch List.mem_cons_self
        have hlt : ch - 48 < 10 ^ 1 := by unfold IsDig at hch; omega
        obtain ⟨v1, v2⟩ := value_step (B := 10) (lb := limbBits c) hb hlt (show s.counter + 1 ≤ pmStep c by omega) (pow_step_lt c) (by norm_num)
        rw [v1]
        obtain ⟨s', n, e, A, st⟩ := ih ⟨p', s.value * 10 + (ch - 48), s.counter + 1, s.digits + 1⟩ (by simp only [List.length_cons] at hf ⊢; omega) (fun x hx => h x (List.mem_cons_of_mem _ hx)) v2
          (by simp only; omega) (by simp only; omega)
        refine ⟨s', 1 + n, e, PMAdv.trans (s' := ⟨p', s.value * 10 + (ch - 48), s.counter + 1, s.digits + 1⟩) ⟨by rw [hp]; simp, by rw [hp]; rfl, by rw [hp]; simp [dval, dvalFrom],
            rfl, rfl, v2, by simp only; omega, by simp only; omega⟩ A, st⟩
      · rw [if_neg hcond]
        exact ⟨s, 0, rfl, triv, by omega⟩

theorem addNative_spec (c : Cfg) (big : Limbs) (pw v : Nat) (hv : LimbsOK (limbBits c) big) (hn : Norm (limbBits c) big)
    (hp : pw < 2 ^ limbBits c) (hp0 : 0 < pw) (hvv : v < 2 ^ limbBits c) (hb : bval (limbBits c) big * pw + v < 2 ^ 3200) :
    ∃ r, addNative c big pw v = .ok r ∧ bval (limbBits c) r = bval (limbBits c) big * pw + v ∧ LimbsOK (limbBits c) r ∧
      Norm (limbBits c) r := by
  have h2 : 2 < bigintLimbs c := by unfold bigintLimbs limbBits; cases c.limb64 <;> simp
  have hle : bval (limbBits c) big ≤ bval (limbBits c) big * pw := Nat.le_mul_of_pos_right _ hp0
  have hlen := len_of_norm c hn (lt_of_le_of_lt (le_trans hle (Nat.le_add_right _ _)) hb)
  obtain ⟨r, e, r1, r2, r3, r4, r5⟩ := smallMul_spec c big pw hv hp (by split at hlen <;> omega)
  have hn' := r5 (by omega) hn
  have hlen' := len_of_norm c hn' (by rw [r1]; exact lt_of_le_of_lt (Nat.le_add_right _ _) hb)
  obtain ⟨s, e', s1, s2, _, _, s5, _⟩ := smallAddFrom_spec c r v 0 r2 hvv (by omega) (Or.inr (by split at hlen' <;> omega))
  refine ⟨s, ?_, by rw [s1, r1]; simp, s2, s5 hn'⟩
  unfold addNative
  simp only [bind, Except.bind, e, e']

theorem pow10Table (n : Nat) (h : n ≤ 19) : tableGet powersOfTenU64 n = .ok (10 ^ n) := by
  interval_cases n <;> rfl

theorem dval_nil : dval [] = 0 := rfl

/-- The digit loop of `parse_mantissa` over one span. -/
theorem pmLoop_spec (c : Cfg) (ct : CharType) (md : Nat) (hcap : 4 * 10 ^ (md + 1) < 2 ^ 3200) (isTrunc : List Nat → Exec Bool)
    (T : List Nat → Bool) : ∀ (fuel : Nat) (big : Limbs) (p : List Nat) (digits : Nat), p.length < fuel → (∀ x ∈ p, IsDig x) →
    (∀ n, isTrunc (p.drop n) = .ok (T (p.drop n))) →
    digits < md → LimbsOK (limbBits c) big → Norm (limbBits c) big → bval (limbBits c) big < 10 ^ digits →
    ∃ b : Limbs, LimbsOK (limbBits c) b ∧ Norm (limbBits c) b ∧
      if digits + p.length < md then
        pmLoop c ct md isTrunc fuel big p digits = .ok (.inr (b, digits + p.length)) ∧
        bval (limbBits c) b = bval (limbBits c) big * 10 ^ p.length + dval p
      else if T (p.drop (md - digits)) then
        pmLoop c ct md isTrunc fuel big p digits = .ok (.inl (b, md + 1)) ∧
        bval (limbBits c) b = 10 * (bval (limbBits c) big * 10 ^ (md - digits) + dval (p.take (md - digits))) + 1
      else
        pmLoop c ct md isTrunc fuel big p digits = .ok (.inl (b, md)) ∧
        bval (limbBits c) b = bval (limbBits c) big * 10 ^ (md - digits) + dval (p.take (md - digits)) := by
  intro fuel
  induction fuel with
  | zero => intro big p digits h; omega
  | succ fuel ih =>
    intro big p digits hf h hT hd hv hn hb
    by_cases hp0 : p.length = 0
    · have hp : p = [] := List.length_eq_zero_iff.1 hp0
      subst hp
      refine ⟨big, hv, hn, ?_⟩
      rw [if_pos (by simpa using hd)]
      unfold pmLoop
      simp [dval_nil]
    · have hpm : 1 ≤ pmStep c := by unfold pmStep; split <;> omega
      obtain ⟨s1, n1, e1, A1⟩ := pmEightLoop_spec c ct md (p.length + 1) { p := p, value := 0, counter := 0, digits := digits }
        (by simp) h (by simp) (Nat.zero_le _) (Nat.le_of_lt hd)
      obtain ⟨s2, n2, e2, A2, st⟩ := pmOneLoop_spec c md (s1.p.length + 1) s1 (by omega)
        (by rw [A1.p]; exact fun x hx => h x (List.mem_of_mem_drop hx)) A1.bound A1.cstep A1.dmd
      have A := A1.trans A2
      obtain ⟨n, hn12⟩ : ∃ n, n1 + n2 = n := ⟨_, rfl⟩
      rw [hn12] at A
      have a1 := A.len
      have a2 := A.p
      have a3 := A.value
      have a4 := A.counter
      have a5 := A.digits
      have a6 := A.bound
      have a7 := A.cstep
      have a8 := A.dmd
      simp only [Nat.zero_mul, Nat.zero_add] at a1 a2 a3 a4 a5
      have hn0 : 1 ≤ n := by
        rcases st with st | st | st
        · rw [a2] at st
          have := congrArg List.length st
          rw [List.length_drop] at this; simp at this; omega
        · omega
        · omega
      rw [a4] at a6 a7
      have hstep19 : n ≤ 19 := by have : pmStep c ≤ 19 := by unfold pmStep; split <;> omega
                                  omega
      have hpw : 10 ^ n < 2 ^ limbBits c := lt_of_le_of_lt (Nat.pow_le_pow_right (by norm_num) a7) (pow_step_lt c)
      have hcap2 : 10 ^ md ≤ 10 ^ (md + 1) := Nat.pow_le_pow_right (by norm_num) (by omega)
      have hnew : bval (limbBits c) big * 10 ^ n + s2.value < 10 ^ (digits + n) := by
        rw [pow_add]
        have : (bval (limbBits c) big + 1) * 10 ^ n ≤ 10 ^ digits * 10 ^ n := Nat.mul_le_mul_right _ hb
        rw [Nat.add_mul] at this; omega
      have hmdle : 10 ^ (digits + n) ≤ 10 ^ md := Nat.pow_le_pow_right (by norm_num) (by omega)
      obtain ⟨b, eb, b1, b2, b3⟩ := addNative_spec c big (10 ^ n) s2.value hv hn hpw (by positivity) (by omega) (by omega)
      have hunf : pmLoop c ct md isTrunc (fuel + 1) big p digits =
          (if s2.digits = md then do
            let t ← isTrunc s2.p
            if t then do
              let r ← roundUpBigint c b s2.digits
              pure (.inl r)
            else pure (.inl (b, s2.digits))
          else pmLoop c ct md isTrunc fuel b s2.p s2.digits) := by
        conv_lhs => unfold pmLoop
        rw [if_neg hp0]
        simp only [bind, Except.bind, e1, e2, a4, pow10Table n hstep19]
        rw [Nat.mod_eq_of_lt hpw, eb]
      rw [hunf]
      by_cases hfull : s2.digits = md
      · rw [if_pos hfull]
        have hk : md - digits = n := by omega
        have hnlt : ¬ digits + p.length < md := by omega
        rw [hk, a2]
        simp only [hnlt, if_false, bind, Except.bind, hT n]
        have hval : bval (limbBits c) b = bval (limbBits c) big * 10 ^ n + dval (p.take n) := by rw [b1, a3]
        cases hTT : T (p.drop n)
        · refine ⟨b, b2, b3, ?_⟩
          simp only [Bool.false_eq_true, if_false, pure, Except.pure, hfull]
          exact ⟨trivial, hval⟩
        · have h10 : 1 < 2 ^ limbBits c := Nat.one_lt_two_pow (by have := limbBits_pos c; omega)
          have h10' : 10 < 2 ^ limbBits c := lt_of_lt_of_le (by norm_num : 10 < 2 ^ 32) (Nat.pow_le_pow_right (by norm_num) (limbBits_pos c))
          have hlast : bval (limbBits c) b * 10 + 1 < 2 ^ 3200 := by
            rw [b1]
            have : 10 ^ (md + 1) = 10 ^ md * 10 := by rw [pow_succ]
            omega
          obtain ⟨b', eb', q1, q2, q3⟩ := addNative_spec c b 10 1 b2 b3 h10' (by norm_num) h10 hlast
          refine ⟨b', q2, q3, ?_⟩
          unfold roundUpBigint
          simp only [if_true, bind, Except.bind, eb', pure, Except.pure, hfull]
          refine ⟨trivial, ?_⟩
          rw [q1, hval]; ring
      · rw [if_neg hfull]
        have hs2 : digits + n < md := by omega
        have hrest := ih b s2.p s2.digits (by rw [a2, List.length_drop]; omega)
          (by rw [a2]; exact fun x hx => h x (List.mem_of_mem_drop hx))
          (by intro k; rw [a2, List.drop_drop]; exact hT _) (by omega) b2 b3 (by rw [b1, a5]; exact hnew)
        obtain ⟨b', q2, q3, q4⟩ := hrest
        refine ⟨b', q2, q3, ?_⟩
        have hlen2 : s2.digits + s2.p.length = digits + p.length := by rw [a5, a2, List.length_drop]; omega
        rw [hlen2] at q4
        by_cases hlt : digits + p.length < md
        · rw [if_pos hlt] at q4 ⊢
          refine ⟨q4.1, ?_⟩
          rw [q4.2, b1, a3, a2]
          conv_rhs => rw [← List.take_append_drop n p, dval_append]
          rw [List.length_append, List.length_take, Nat.min_eq_left a1, pow_add]
          ring
        · rw [if_neg hlt] at q4 ⊢
          have hsp : md - digits = n + (md - s2.digits) := by omega
          have hval : bval (limbBits c) b * 10 ^ (md - s2.digits) + dval (s2.p.take (md - s2.digits)) =
              bval (limbBits c) big * 10 ^ (md - digits) + dval (p.take (md - digits)) := by
            rw [hsp, List.take_add, dval_append, List.length_take, List.length_drop, b1, a2, a3, pow_add,
              Nat.min_eq_left (by omega)]
            ring
          have hdr : s2.p.drop (md - s2.digits) = p.drop (md - digits) := by rw [a2, List.drop_drop, hsp]
          rw [hval, hdr] at q4
          exact q4

/-- The outcome of `parse_mantissa` on the significant digits `S`. -/
def PMOut (md : Nat) (S : List Nat) (D d : Nat) : Prop :=
  (S.length ≤ md ∧ d = S.length ∧ D = dval S) ∨
  (md < S.length ∧ (S.drop md).any (· != 48) = false ∧ d = md ∧ D = dval (S.take md)) ∨
  (md < S.length ∧ (S.drop md).any (· != 48) = true ∧ d = md + 1 ∧ D = 10 * dval (S.take md) + 1)

/-- One span whose digits start at `digits` after the digits `A` (already in `big`). -/
theorem pmLoop_out (c : Cfg) (ct : CharType) (md : Nat) (hcap : 4 * 10 ^ (md + 1) < 2 ^ 3200) (isTrunc : List Nat → Exec Bool)
    (A p R : List Nat) (big : Limbs) (hp : ∀ x ∈ p, IsDig x) (hA : ∀ x ∈ A, IsDig x)
    (hT : ∀ n, isTrunc (p.drop n) = .ok ((p.drop n ++ R).any (· != 48)))
    (hd : A.length < md) (hv : LimbsOK (limbBits c) big) (hn : Norm (limbBits c) big) (hb : bval (limbBits c) big = dval A) :
    ∃ b : Limbs, LimbsOK (limbBits c) b ∧ Norm (limbBits c) b ∧
      ((A.length + p.length < md ∧ pmLoop c ct md isTrunc (p.length + 1) big p A.length = .ok (.inr (b, A.length + p.length)) ∧
        bval (limbBits c) b = dval (A ++ p)) ∨
       (md ≤ A.length + p.length ∧ ∃ d, pmLoop c ct md isTrunc (p.length + 1) big p A.length = .ok (.inl (b, d)) ∧
        PMOut md (A ++ p ++ R) (bval (limbBits c) b) d)) := by
  obtain ⟨b, b1, b2, b3⟩ := pmLoop_spec c ct md hcap isTrunc (fun q => (q ++ R).any (· != 48)) (p.length + 1) big p A.length (by omega) hp hT hd
    hv hn (by rw [hb]; exact dval_lt hA)
  refine ⟨b, b1, b2, ?_⟩
  rw [hb] at b3
  by_cases h1 : A.length + p.length < md
  · rw [if_pos h1] at b3
    exact Or.inl ⟨h1, b3.1, by rw [b3.2, dval_append]⟩
  · rw [if_neg h1] at b3
    refine Or.inr ⟨by omega, ?_⟩
    have htake : (A ++ p ++ R).take md = A ++ p.take (md - A.length) := by
      rw [List.append_assoc, List.take_append, List.take_of_length_le (by omega), List.take_append,
        show md - A.length - p.length = 0 by omega]
      simp
    have hdrop : (A ++ p ++ R).drop md = p.drop (md - A.length) ++ R := by
      rw [List.append_assoc, List.drop_append, List.drop_of_length_le (by omega), List.drop_append,
        show md - A.length - p.length = 0 by omega]
      simp
    have hval : dval A * 10 ^ (md - A.length) + dval (p.take (md - A.length)) = dval ((A ++ p ++ R).take md) := by
      rw [htake, dval_append, List.length_take, Nat.min_eq_left (by omega)]
    rw [hval] at b3
    have hlenS : (A ++ p ++ R).length = A.length + p.length + R.length := by simp [Nat.add_assoc]
    by_cases h2 : ((p.drop (md - A.length) ++ R).any (· != 48)) = true
    · rw [if_pos h2] at b3
      refine ⟨md + 1, b3.1, Or.inr (Or.inr ⟨?_, by rw [hdrop]; exact h2, rfl, b3.2⟩)⟩
      by_contra hle
      rw [← hdrop, List.drop_of_length_le (by omega)] at h2
      simp at h2
    · rw [if_neg h2] at b3
      refine ⟨md, b3.1, ?_⟩
      by_cases h3 : md < (A ++ p ++ R).length
      · exact Or.inr (Or.inl ⟨h3, by rw [hdrop]; simpa using h2, rfl, b3.2⟩)
      · refine Or.inl ⟨by omega, by omega, ?_⟩
        rw [b3.2, List.take_of_length_le (by omega)]

theorem dz_append (l r : List Nat) : dz (l ++ r) = if (dz l) = [] then dz r else dz l ++ r := by
  unfold dz
  rw [List.dropWhile_append]
  simp [List.isEmpty_iff]

theorem dz_mem {l : List Nat} {P : Nat → Prop} (h : ∀ x ∈ l, P x) : ∀ x ∈ dz l, P x := by
  intro x hx
  exact h x (List.Sublist.subset (List.dropWhile_sublist _) hx)

/-- `parse_mantissa` on the digits of a number. -/
theorem parseMantissa_spec (c : Cfg) (ct : CharType) (hw : ct.WF) (md : Nat) (hmd : 0 < md) (hcap : 4 * 10 ^ (md + 1) < 2 ^ 3200)
    (num : ParsedNumber) (hI : ∀ x ∈ num.integer.getD [], IsDig x) (hF : ∀ x ∈ num.fraction.getD [], IsDig x) :
    ∃ big d, parseMantissa c ct num md = .ok (big, d) ∧ LimbsOK (limbBits c) big ∧ Norm (limbBits c) big ∧
      PMOut md (dz (num.integer.getD [] ++ num.fraction.getD [])) (bval (limbBits c) big) d := by
  obtain ⟨I, hIe⟩ : ∃ I, num.integer.getD [] = I := ⟨_, rfl⟩
  rw [hIe] at hI ⊢
  unfold parseMantissa
  simp only [bind, Except.bind, hIe, skipZeros_eq c ct hw I hI]
  have hA := dz_mem hI
  have h0 : LimbsOK (limbBits c) ([] : Limbs) := by intro x hx; simp at hx
  have h1 : Norm (limbBits c) ([] : Limbs) := fun h => absurd rfl h
  obtain ⟨b, b1, b2, hb⟩ := pmLoop_out c ct md hcap (intTrunc c ct num.fraction) [] (dz I) (num.fraction.getD []) [] hA (by simp)
    (by
      intro n
      unfold intTrunc
      simp only [bind, Except.bind, isTruncated_eq c ct hw _ (fun x hx => hA x (List.mem_of_mem_drop hx))]
      cases hf : num.fraction with
      | none => simp [pure, Except.pure]
      | some f =>
        rw [hf] at hF
        simp only [isTruncated_eq c ct hw f hF, pure, Except.pure, Option.getD_some, List.any_append])
    hmd h0 h1 rfl
  simp only [List.length_nil, Nat.zero_add, List.nil_append] at hb
  rcases hb with ⟨hlt, he, hval⟩ | ⟨hge, d, he, hout⟩
  · rw [he]
    simp only
    cases hf : num.fraction with
    | none =>
      refine ⟨b, (dz I).length, rfl, b1, b2, Or.inl ?_⟩
      simp only [Option.getD_none, List.append_nil]
      exact ⟨by omega, trivial, hval⟩
    | some f =>
      rw [hf] at hF
      simp only [Option.getD_some] at hF ⊢
      have key : ∀ (A p : List Nat) (big : Limbs), LimbsOK (limbBits c) big → Norm (limbBits c) big → bval (limbBits c) big = dval A →
          A.length < md → (∀ x ∈ A, IsDig x) → (∀ x ∈ p, IsDig x) → 
          ∃ r big' d, pmLoop c ct md (isTruncated c ct) (p.length + 1) big p A.length = .ok r ∧
            (r = .inl (big', d) ∨ r = .inr (big', d)) ∧ LimbsOK (limbBits c) big' ∧ Norm (limbBits c) big' ∧
            PMOut md (A ++ p) (bval (limbBits c) big') d := by
        intro A p big v1 v2 v3 v4 v5 v6
        obtain ⟨b', q1, q2, hb'⟩ := pmLoop_out c ct md hcap (isTruncated c ct) A p [] big v6 v5 (by
          intro n; rw [isTruncated_eq c ct hw _ (fun x hx => v6 x (List.mem_of_mem_drop hx)), List.append_nil]) v4 v1 v2 v3
        rcases hb' with ⟨g1, g2, g3⟩ | ⟨g1, d, g2, g3⟩
        · exact ⟨_, b', A.length + p.length, g2, Or.inr rfl, q1, q2, Or.inl ⟨by simp; omega, by simp, g3⟩⟩
        · rw [List.append_nil] at g3
          exact ⟨_, b', d, g2, Or.inl rfl, q1, q2, g3⟩
      rw [dz_append]
      by_cases hz : dz I = []
      · rw [if_pos hz]
        rw [hz] at hval ⊢
        simp only [List.length_nil, if_true, skipZeros_eq c ct hw f hF]
        obtain ⟨r, b', d, g1, g2, g3⟩ := key [] (dz f) b b1 b2 hval hmd (by simp) (dz_mem hF)
        rw [List.length_nil] at g1
        rw [g1]
        rw [List.nil_append] at g3
        rcases g2 with rfl | rfl <;> exact ⟨b', d, rfl, g3⟩
      · rw [if_neg hz]
        have hz0 : (dz I).length ≠ 0 := by simpa using hz
        rw [if_neg hz0]
        simp only [pure, Except.pure]
        obtain ⟨r, b', d, g1, g2, g3⟩ := key (dz I) f b b1 b2 hval hlt hA hF
        rw [g1]
        rcases g2 with rfl | rfl <;> exact ⟨b', d, rfl, g3⟩
  · rw [he]
    refine ⟨b, d, rfl, b1, b2, ?_⟩
    rw [dz_append]
    by_cases hz : dz I = []
    · rw [hz] at hge; simp at hge; omega
    · rw [if_neg hz]; exact hout

theorem dval_eq_zero {l : List Nat} (h : ∀ x ∈ l, IsDig x) : dval l = 0 ↔ l.any (· != 48) = false := by
  induction l with
  | nil => simp [dval_nil]
  | cons a l ih =>
    have ha := h a List.mem_cons_self
    have ih := ih (fun x hx => h x (List.mem_cons_of_mem _ hx))
    rw [dval_cons, List.any_cons, Bool.or_eq_false_iff, ← ih]
    unfold IsDig at ha
    have hp : 0 < 10 ^ l.length := by positivity
    constructor
    · intro h0
      have : a - 48 = 0 := by
        by_contra hne
        have := Nat.mul_pos (Nat.pos_of_ne_zero hne) hp
        omega
      exact ⟨by simp; omega, by omega⟩
    · rintro ⟨h1, h2⟩
      have : a = 48 := by simpa using h1
      rw [this, h2]; simp

/-- No leading zero: the digits are worth at least `10^(n-1)`. -/
theorem dval_ge {l : List Nat} (h : ∀ x ∈ l, IsDig x) (hne : l ≠ []) (hz : dz l = l) : 10 ^ (l.length - 1) ≤ dval l := by
  cases l with
  | nil => exact absurd rfl hne
  | cons a l =>
    have ha := h a List.mem_cons_self
    have : a ≠ 48 := by
      intro h48
      subst h48
      have : dz (48 :: l) = dz l := by unfold dz; simp
      rw [this] at hz
      have h1 : (dz l).length ≤ l.length := by unfold dz; exact (List.dropWhile_sublist _).length_le
      rw [hz] at h1; simp at h1
    unfold IsDig at ha
    rw [dval_cons]
    simp only [List.length_cons, Nat.add_sub_cancel]
    have : 1 * 10 ^ l.length ≤ (a - 48) * 10 ^ l.length := Nat.mul_le_mul_right _ (by omega)
    omega

theorem dz_idem (l : List Nat) : dz (dz l) = dz l := by
  induction l with
  | nil => rfl
  | cons a l ih =>
    by_cases h : a = 48
    · subst h
      have : dz (48 :: l) = dz l := by unfold dz; simp
      rw [this, ih]
    · have : dz (a :: l) = a :: l := by unfold dz; simp [h]
      rw [this, this]

theorem dval_dz (l : List Nat) : dval (dz l) = dval l := by
  induction l with
  | nil => rfl
  | cons a l ih =>
    by_cases h : a = 48
    · subst h
      have : dz (48 :: l) = dz l := by unfold dz; simp
      rw [this, ih, dval_cons]; simp
    · have : dz (a :: l) = a :: l := by unfold dz; simp [h]
      rw [this]

/-- The output of `parse_mantissa` satisfies the interface of the numeric part. -/
theorem PMOut.mantOK {md : Nat} {S : List Nat} {D d : Nat} (h : PMOut md S D d) (hS : ∀ x ∈ S, IsDig x) (hne : S ≠ []) (hz : dz S = S)
    (hmd : 0 < md) (ex : Int) :
    MantOK md ((dval S : ℚ) * 10 ^ ex) D d (ex + S.length - d) ∧ 0 < D ∧ (d ≤ md → D < 10 ^ d) := by
  have hge := dval_ge hS hne hz
  have hlt := dval_lt hS
  have hpos : 0 < dval S := lt_of_lt_of_le (by positivity) hge
  rcases h with ⟨h1, h2, h3⟩ | ⟨h1, h2, h3, h4⟩ | ⟨h1, h2, h3, h4⟩
  · subst h2 h3
    refine ⟨Or.inl ⟨h1, by congr 2; omega⟩, hpos, fun _ => hlt⟩
  all_goals
    have hsplit : dval S = dval (S.take md) * 10 ^ (S.length - md) + dval (S.drop md) := by
      conv_lhs => rw [← List.take_append_drop md S, dval_append, List.length_drop]
    have hlt1 := dval_lt (l := S.take md) (fun x hx => hS x (List.mem_of_mem_take hx))
    have hlt2 := dval_lt (l := S.drop md) (fun x hx => hS x (List.mem_of_mem_drop hx))
    rw [List.length_take, Nat.min_eq_left (by omega)] at hlt1
    rw [List.length_drop] at hlt2
    have hD0 : 0 < dval (S.take md) := by
      by_contra hc
      have hc : dval (S.take md) = 0 := by omega
      rw [hc] at hsplit
      have : 10 ^ (S.length - md) ≤ 10 ^ (S.length - 1) := Nat.pow_le_pow_right (by norm_num) (by omega)
      omega
    have hzero := dval_eq_zero (l := S.drop md) (fun x hx => hS x (List.mem_of_mem_drop hx))
  · subst h3 h4
    rw [hzero.2 h2, Nat.add_zero] at hsplit
    refine ⟨Or.inl ⟨le_refl _, ?_⟩, hD0, fun _ => hlt1⟩
    rw [hsplit]
    push_cast
    rw [mul_assoc]
    congr 1
    rw [← zpow_natCast (10 : ℚ), ← zpow_add₀ (by norm_num)]
    congr 1; omega
  · subst h3 h4
    have hnz : dval (S.drop md) ≠ 0 := by
      intro hc; rw [hzero.1 hc] at h2; exact absurd h2 (by simp)
    refine ⟨Or.inr ⟨rfl, dval (S.take md), hD0, rfl, ?_, ?_⟩, by omega, fun hc => by omega⟩
    all_goals
      have he : ex + (S.length : Int) - ((md + 1 : Nat) : Int) + 1 = ((S.length - md : Nat) : Int) + ex := by omega
      rw [he, zpow_add₀ (by norm_num), zpow_natCast, ← mul_assoc]
      have hp : (0 : ℚ) < 10 ^ ex := zpow_pos (by norm_num) _
      rw [mul_lt_mul_iff_left₀ hp]
    · exact_mod_cast (by omega : dval (S.take md) * 10 ^ (S.length - md) < dval S)
    · have : dval S < (dval (S.take md) + 1) * 10 ^ (S.length - md) := by rw [Nat.add_mul]; omega
      exact_mod_cast this

end FastFloat
