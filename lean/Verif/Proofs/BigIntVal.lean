import Verif.Model.BigInt
import Verif.Proofs.Words
/-
# Big integers: every operation computes the exact number, within capacity
-/
namespace FastFloat

/-- The number a little-endian limb vector stands for. -/
def bval (b : Nat) : Limbs → Nat
  | [] => 0
  | x :: xs => x + 2 ^ b * bval b xs

/-- All limbs are in range. -/
def LimbsOK (b : Nat) (v : Limbs) : Prop := ∀ x ∈ v, x < 2 ^ b

/-- No leading zero limb. -/
def Norm (b : Nat) (v : Limbs) : Prop := v ≠ [] → 2 ^ (b * (v.length - 1)) ≤ bval b v

theorem limbBits_pos (c : Cfg) : 32 ≤ limbBits c := by unfold limbBits; split <;> omega

theorem bval_lt {b : Nat} {v : Limbs} (h : LimbsOK b v) : bval b v < 2 ^ (b * v.length) := by
  induction v with
  | nil => simp [bval]
  | cons x xs ih =>
    have h1 := ih (fun y hy => h y (List.mem_cons_of_mem _ hy))
    have h2 := h x List.mem_cons_self
    simp only [bval, List.length_cons, Nat.mul_add, Nat.mul_one, pow_add]
    have : 2 ^ b * (bval b xs + 1) ≤ 2 ^ b * 2 ^ (b * xs.length) := Nat.mul_le_mul_left _ h1
    rw [Nat.mul_comm (2 ^ (b * xs.length))]
    have e : 2 ^ b * (bval b xs + 1) = 2 ^ b * bval b xs + 2 ^ b := by ring
    omega

theorem bval_append (b : Nat) (u v : Limbs) : bval b (u ++ v) = bval b u + 2 ^ (b * u.length) * bval b v := by
  induction u with
  | nil => simp [bval]
  | cons x xs ih =>
    simp only [List.cons_append, bval, ih, List.length_cons, Nat.mul_add, Nat.mul_one, pow_add]
    ring

theorem LimbsOK.append {b : Nat} {u v : Limbs} (hu : LimbsOK b u) (hv : LimbsOK b v) : LimbsOK b (u ++ v) := by
  intro x hx
  rcases List.mem_append.1 hx with h | h
  · exact hu x h
  · exact hv x h

theorem scalarAdd_eq (c : Cfg) (x y : Nat) (hx : x < 2 ^ limbBits c) (hy : y < 2 ^ limbBits c) :
    (scalarAdd c x y).1 + 2 ^ limbBits c * (if (scalarAdd c x y).2 then 1 else 0) = x + y ∧
    (scalarAdd c x y).1 < 2 ^ limbBits c := by
  unfold scalarAdd
  have hp := Nat.two_pow_pos (limbBits c)
  generalize 2 ^ limbBits c = B at *
  have hm := Nat.mod_lt (x + y) hp
  by_cases h : x + y < B
  · have e : (x + y) % B = x + y := Nat.mod_eq_of_lt h
    split
    · simp only [e]
      rw [if_neg (by simp; omega)]
      omega
    · simp only [e]
      rw [if_neg (by simp)]
      omega
  · have e : (x + y) % B = x + y - B := by
      rw [Nat.mod_eq_sub_mod (by omega), Nat.mod_eq_of_lt (by omega)]
    split
    · simp only [e]
      rw [if_pos (by simp; omega)]
      omega
    · simp only [e]
      rw [if_pos (by simp; omega)]
      omega

theorem scalarMul_eq (c : Cfg) (x y carry : Nat) (hx : x < 2 ^ limbBits c) (hy : y < 2 ^ limbBits c)
    (hc : carry < 2 ^ limbBits c) :
    (scalarMul c x y carry).1 + 2 ^ limbBits c * (scalarMul c x y carry).2 = x * y + carry ∧
    (scalarMul c x y carry).1 < 2 ^ limbBits c ∧ (scalarMul c x y carry).2 < 2 ^ limbBits c := by
  unfold scalarMul
  by_cases h64 : c.limb64
  · have hb : limbBits c = 64 := by unfold limbBits; rw [if_pos h64]
    have hadd := scalarAdd_eq c (x * y % 2 ^ 64) carry (by rw [hb]; omega) hc
    rw [hb] at hx hy hc hadd ⊢
    rw [if_pos h64]
    have bnd : x * y ≤ 18446744073709551615 * 18446744073709551615 := Nat.mul_le_mul (by omega) (by omega)
    split
    · simp only
      generalize x * y = P at *
      refine ⟨?_, ?_, ?_⟩ <;> omega
    · rw [fullMultiplication_eq c x y hx hy]
      simp only
      generalize x * y = P at *
      obtain ⟨a1, a2⟩ := hadd
      generalize (scalarAdd c (P % 2 ^ 64) carry).1 = u at *
      generalize (scalarAdd c (P % 2 ^ 64) carry).2 = o at *
      cases o
      · simp at a1 ⊢; omega
      · simp at a1 ⊢; omega
  · have hb : limbBits c = 32 := by unfold limbBits; rw [if_neg h64]
    rw [hb] at hx hy hc ⊢
    rw [if_neg h64]
    have bnd : x * y ≤ 4294967295 * 4294967295 := Nat.mul_le_mul (by omega) (by omega)
    simp only
    generalize x * y = P at *
    refine ⟨?_, ?_, ?_⟩ <;> omega

theorem addCarryLoop_spec (c : Cfg) : ∀ (v : Limbs) (y : Nat), LimbsOK (limbBits c) v → y < 2 ^ limbBits c →
    let r := addCarryLoop c v y
    bval (limbBits c) r.1 + 2 ^ (limbBits c * v.length) * r.2 = bval (limbBits c) v + y ∧ LimbsOK (limbBits c) r.1 ∧
    r.2 < 2 ^ limbBits c ∧ r.1.length = v.length := by
  intro v
  induction v with
  | nil => intro y _ hy; simp [addCarryLoop, bval, LimbsOK, hy]
  | cons x xs ih =>
    intro y h hy
    have h2 := h x List.mem_cons_self
    have h1 : LimbsOK (limbBits c) xs := fun z hz => h z (List.mem_cons_of_mem _ hz)
    simp only [addCarryLoop]
    by_cases hy0 : y = 0
    · rw [if_pos hy0]; subst hy0
      exact ⟨by simp, h, Nat.two_pow_pos _, rfl⟩
    · rw [if_neg hy0]
      obtain ⟨a1, a2⟩ := scalarAdd_eq c x y h2 hy
      have hone : (if (scalarAdd c x y).2 then 1 else 0) < 2 ^ limbBits c := by
        have : 1 < 2 ^ limbBits c := Nat.one_lt_two_pow (by have := limbBits_pos c; omega)
        split <;> omega
      obtain ⟨b1, b2, b3, b4⟩ := ih (if (scalarAdd c x y).2 then 1 else 0) h1 hone
      generalize (if (scalarAdd c x y).2 then 1 else 0) = o at *
      refine ⟨?_, ?_, b3, by simp [b4]⟩
      · simp only [bval, List.length_cons, Nat.mul_add, Nat.mul_one, pow_add]
        calc _ = (scalarAdd c x y).1 + 2 ^ limbBits c * (bval (limbBits c) (addCarryLoop c xs o).1 +
              2 ^ (limbBits c * xs.length) * (addCarryLoop c xs o).2) := by ring
          _ = (scalarAdd c x y).1 + 2 ^ limbBits c * (bval (limbBits c) xs + o) := by rw [b1]
          _ = ((scalarAdd c x y).1 + 2 ^ limbBits c * o) + 2 ^ limbBits c * bval (limbBits c) xs := by ring
          _ = _ := by rw [a1]; ring
      · intro z hz
        rcases List.mem_cons.1 hz with h | h
        · rw [h]; exact a2
        · exact b2 z h

theorem mulLoop_spec (c : Cfg) (y : Nat) (hy : y < 2 ^ limbBits c) : ∀ (v : Limbs) (carry : Nat),
    LimbsOK (limbBits c) v → carry < 2 ^ limbBits c →
    let r := mulLoop c y v carry
    bval (limbBits c) r.1 + 2 ^ (limbBits c * v.length) * r.2 = bval (limbBits c) v * y + carry ∧ LimbsOK (limbBits c) r.1 ∧
    r.2 < 2 ^ limbBits c ∧ r.1.length = v.length := by
  intro v
  induction v with
  | nil => intro y _ hy; simp [mulLoop, bval, LimbsOK, hy]
  | cons x xs ih =>
    intro carry h hc
    have h2 := h x List.mem_cons_self
    have h1 : LimbsOK (limbBits c) xs := fun z hz => h z (List.mem_cons_of_mem _ hz)
    simp only [mulLoop]
    obtain ⟨a1, a2, a3⟩ := scalarMul_eq c x y carry h2 hy hc
    obtain ⟨b1, b2, b3, b4⟩ := ih (scalarMul c x y carry).2 h1 a3
    refine ⟨?_, ?_, b3, by simp [b4]⟩
    · simp only [bval, List.length_cons, Nat.mul_add, Nat.mul_one, pow_add]
      calc _ = (scalarMul c x y carry).1 + 2 ^ limbBits c * (bval (limbBits c) (mulLoop c y xs (scalarMul c x y carry).2).1 +
            2 ^ (limbBits c * xs.length) * (mulLoop c y xs (scalarMul c x y carry).2).2) := by ring
        _ = (scalarMul c x y carry).1 + 2 ^ limbBits c * (bval (limbBits c) xs * y + (scalarMul c x y carry).2) := by rw [b1]
        _ = ((scalarMul c x y carry).1 + 2 ^ limbBits c * (scalarMul c x y carry).2) +
              2 ^ limbBits c * bval (limbBits c) xs * y := by ring
        _ = _ := by rw [a1]; ring
    · intro z hz
      rcases List.mem_cons.1 hz with h | h
      · rw [h]; exact a2
      · exact b2 z h

/-- Pushing a nonzero carry. -/
theorem push_spec (c : Cfg) (v : Limbs) (k V : Nat) (hv : LimbsOK (limbBits c) v) (hk : k < 2 ^ limbBits c)
    (hV : bval (limbBits c) v + 2 ^ (limbBits c * v.length) * k = V)
    (hcap : k ≠ 0 → v.length < bigintLimbs c) :
    ∃ r, (if k ≠ 0 then tryPush c v k else .ok v) = .ok r ∧ bval (limbBits c) r = V ∧ LimbsOK (limbBits c) r ∧
      v.length ≤ r.length ∧ r.length ≤ v.length + 1 ∧ (r.length = v.length + 1 → 2 ^ (limbBits c * v.length) ≤ V) := by
  by_cases h : k ≠ 0
  · rw [if_pos h]
    unfold tryPush
    rw [if_pos (hcap h)]
    refine ⟨_, rfl, ?_, hv.append (by intro x hx; simp at hx; omega), by simp, by simp, fun _ => ?_⟩
    · rw [bval_append]; simp [bval, hV]
    · rw [← hV]
      have : 2 ^ (limbBits c * v.length) * 1 ≤ 2 ^ (limbBits c * v.length) * k := Nat.mul_le_mul_left _ (by omega)
      omega
  · rw [if_neg h]
    have : k = 0 := by omega
    subst this
    refine ⟨v, rfl, by simpa using hV, hv, le_rfl, by omega, by omega⟩

/-- `small_mul`, length-based. -/
theorem smallMul_spec (c : Cfg) (v : Limbs) (y : Nat) (hv : LimbsOK (limbBits c) v) (hy : y < 2 ^ limbBits c)
    (hcap : v.length < bigintLimbs c) :
    ∃ r, smallMul c v y = .ok r ∧ bval (limbBits c) r = bval (limbBits c) v * y ∧ LimbsOK (limbBits c) r ∧
      v.length ≤ r.length ∧ r.length ≤ v.length + 1 ∧ (y ≠ 0 → Norm (limbBits c) v → Norm (limbBits c) r) := by
  obtain ⟨a1, a2, a3, a4⟩ := mulLoop_spec c y hy v 0 hv (Nat.two_pow_pos _)
  unfold smallMul
  simp only
  obtain ⟨r, e, hr1, hr2, hr3, hr4, hr5⟩ := push_spec c (mulLoop c y v 0).1 (mulLoop c y v 0).2 (bval (limbBits c) v * y) a2 a3
    (by rw [a4]; simpa using a1) (by rw [a4]; intro _; exact hcap)
  rw [a4] at hr3 hr4 hr5
  refine ⟨r, e, hr1, hr2, hr3, hr4, fun hy0 hn hne => ?_⟩
  rw [hr1]
  rcases Nat.lt_or_ge v.length r.length with h | h
  · rw [show r.length - 1 = v.length by omega]; exact hr5 (by omega)
  · have hl : r.length = v.length := by omega
    rw [hl]
    have hvne : v ≠ [] := by
      intro hc; subst hc; simp at hl; exact hne hl
    calc 2 ^ (limbBits c * (v.length - 1)) ≤ bval (limbBits c) v := hn hvne
      _ ≤ _ := Nat.le_mul_of_pos_right _ (by omega)

/-- `small_add_from` at any start. -/
theorem smallAddFrom_spec (c : Cfg) (v : Limbs) (y start : Nat) (hv : LimbsOK (limbBits c) v) (hy : y < 2 ^ limbBits c)
    (hs : start ≤ v.length) (hcap : bval (limbBits c) v + 2 ^ (limbBits c * start) * y < 2 ^ (limbBits c * v.length) ∨ v.length < bigintLimbs c) :
    ∃ r, smallAddFrom c v y start = .ok r ∧ bval (limbBits c) r = bval (limbBits c) v + 2 ^ (limbBits c * start) * y ∧
      LimbsOK (limbBits c) r ∧ v.length ≤ r.length ∧ r.length ≤ v.length + 1 ∧ (Norm (limbBits c) v → Norm (limbBits c) r) ∧
      (r.length = v.length + 1 → 2 ^ (limbBits c * v.length) ≤ bval (limbBits c) v + 2 ^ (limbBits c * start) * y) := by
  have hd : LimbsOK (limbBits c) (v.drop start) := fun x hx => hv x (List.mem_of_mem_drop hx)
  have ht : LimbsOK (limbBits c) (v.take start) := fun x hx => hv x (List.mem_of_mem_take hx)
  obtain ⟨a1, a2, a3, a4⟩ := addCarryLoop_spec c (v.drop start) y hd hy
  unfold smallAddFrom
  simp only
  have hsplit : bval (limbBits c) v = bval (limbBits c) (v.take start) + 2 ^ (limbBits c * start) * bval (limbBits c) (v.drop start) := by
    conv_lhs => rw [← List.take_append_drop start v]
    rw [bval_append, List.length_take, Nat.min_eq_left hs]
  have hlen : (v.take start ++ (addCarryLoop c (v.drop start) y).1).length = v.length := by
    rw [List.length_append, a4, ← List.length_append, List.take_append_drop]
  have hV : bval (limbBits c) (v.take start ++ (addCarryLoop c (v.drop start) y).1) +
      2 ^ (limbBits c * v.length) * (addCarryLoop c (v.drop start) y).2 =
      bval (limbBits c) v + 2 ^ (limbBits c * start) * y := by
    rw [bval_append, List.length_take, Nat.min_eq_left hs, hsplit]
    have e : 2 ^ (limbBits c * v.length) = 2 ^ (limbBits c * start) * 2 ^ (limbBits c * (v.drop start).length) := by
      rw [← pow_add, ← Nat.mul_add, List.length_drop]; congr 2; omega
    rw [e]
    calc _ = bval (limbBits c) (v.take start) + 2 ^ (limbBits c * start) * (bval (limbBits c) (addCarryLoop c (v.drop start) y).1 +
          2 ^ (limbBits c * (v.drop start).length) * (addCarryLoop c (v.drop start) y).2) := by ring
      _ = _ := by rw [a1]; ring
  obtain ⟨r, e, hr1, hr2, hr3, hr4, hr5⟩ := push_spec c _ (addCarryLoop c (v.drop start) y).2
    (bval (limbBits c) v + 2 ^ (limbBits c * start) * y) (ht.append a2) a3
    (by rw [hlen]; exact hV) (by
      rw [hlen]; intro hne
      rcases hcap with h | h
      · exfalso
        rw [← hV] at h
        have : 2 ^ (limbBits c * v.length) * 1 ≤ 2 ^ (limbBits c * v.length) * (addCarryLoop c (v.drop start) y).2 :=
          Nat.mul_le_mul_left _ (by omega)
        omega
      · exact h)
  rw [hlen] at hr3 hr4 hr5
  refine ⟨r, e, hr1, hr2, hr3, hr4, fun hn hne => ?_, hr5⟩
  rw [hr1]
  rcases Nat.lt_or_ge v.length r.length with h | h
  · rw [show r.length - 1 = v.length by omega]; exact hr5 (by omega)
  · have hl : r.length = v.length := by omega
    rw [hl]
    have hvne : v ≠ [] := by
      intro hc; subst hc; simp at hl; exact hne hl
    have := hn hvne
    omega

theorem largeAddLoop_spec (c : Cfg) : ∀ (ys xs : Limbs) (carry : Bool), LimbsOK (limbBits c) xs → LimbsOK (limbBits c) ys →
    ys.length ≤ xs.length →
    ∃ r, largeAddLoop c xs ys carry = .ok r ∧
      bval (limbBits c) r.1 + 2 ^ (limbBits c * ys.length) * (if r.2 then 1 else 0) =
        bval (limbBits c) xs + bval (limbBits c) ys + (if carry then 1 else 0) ∧
      LimbsOK (limbBits c) r.1 ∧ r.1.length = xs.length := by
  intro ys
  induction ys with
  | nil =>
    intro xs carry hx _ _
    refine ⟨(xs, carry), by simp [largeAddLoop], by simp [bval], hx, rfl⟩
  | cons y ys ih =>
    intro xs carry hx hy hl
    cases xs with
    | nil => simp at hl
    | cons x xs =>
      have x1 := hx x List.mem_cons_self
      have xr : LimbsOK (limbBits c) xs := fun z hz => hx z (List.mem_cons_of_mem _ hz)
      have y1 := hy y List.mem_cons_self
      have yr : LimbsOK (limbBits c) ys := fun z hz => hy z (List.mem_cons_of_mem _ hz)
      simp only [largeAddLoop, bind, Except.bind, pure, Except.pure]
      obtain ⟨a1, a2⟩ := scalarAdd_eq c x y x1 y1
      have h1 : 1 < 2 ^ limbBits c := Nat.one_lt_two_pow (by have := limbBits_pos c; omega)
      -- second addition
      obtain ⟨s2, hs2⟩ : ∃ s2 : Nat × Bool, (if carry then scalarAdd c (scalarAdd c x y).1 1 else ((scalarAdd c x y).1, false)) = s2 := ⟨_, rfl⟩
      have b : s2.1 + 2 ^ limbBits c * (if s2.2 then 1 else 0) = (scalarAdd c x y).1 + (if carry then 1 else 0) ∧ s2.1 < 2 ^ limbBits c := by
        rw [← hs2]
        cases carry
        · simp; exact a2
        · simp only [if_true]; exact scalarAdd_eq c _ 1 a2 h1
      rw [hs2]
      obtain ⟨r, e, c1, c2, c3⟩ := ih xs ((scalarAdd c x y).2 || s2.2) xr yr (by simpa using hl)
      rw [e]
      refine ⟨_, rfl, ?_, ?_, by simp [c3]⟩
      · simp only [bval, List.length_cons, Nat.mul_add, Nat.mul_one, pow_add]
        -- the two carries are exclusive
        have hex : (if ((scalarAdd c x y).2 || s2.2) then 1 else 0) =
            (if (scalarAdd c x y).2 then 1 else 0) + (if s2.2 then 1 else 0) := by
          generalize (scalarAdd c x y).1 = u at *
          generalize (scalarAdd c x y).2 = o1 at *
          obtain ⟨b1, b2⟩ := b
          generalize s2.1 = u2 at *
          generalize s2.2 = o2 at *
          generalize 2 ^ limbBits c = B at *
          cases o1 <;> cases o2 <;> simp at *
          cases carry <;> simp at b1 <;> omega
        rw [hex] at c1
        obtain ⟨b1, _⟩ := b
        generalize (if (scalarAdd c x y).2 then 1 else 0) = o1 at *
        generalize (if s2.2 then 1 else 0) = o2 at *
        generalize (if carry then 1 else 0) = cc at *
        generalize (if r.2 = true then 1 else 0) = rr at *
        calc _ = s2.1 + 2 ^ limbBits c * (bval (limbBits c) r.1 + 2 ^ (limbBits c * ys.length) * rr) := by ring
          _ = s2.1 + 2 ^ limbBits c * (bval (limbBits c) xs + bval (limbBits c) ys + (o1 + o2)) := by rw [c1]
          _ = (s2.1 + 2 ^ limbBits c * o2) + 2 ^ limbBits c * o1 + 2 ^ limbBits c * (bval (limbBits c) xs + bval (limbBits c) ys) := by ring
          _ = ((scalarAdd c x y).1 + 2 ^ limbBits c * o1) + cc + 2 ^ limbBits c * (bval (limbBits c) xs + bval (limbBits c) ys) := by rw [b1]; ring
          _ = _ := by rw [a1]; ring
      · intro z hz
        rcases List.mem_cons.1 hz with h | h
        · rw [h]; exact b.2
        · exact c2 z h

theorem bval_replicate_zero (b n : Nat) : bval b (List.replicate n 0) = 0 := by
  induction n with
  | zero => rfl
  | succ n ih => simp [List.replicate_succ, bval, ih]

theorem LimbsOK_replicate (b n : Nat) : LimbsOK b (List.replicate n 0) := by
  intro x hx
  rw [List.mem_replicate] at hx
  rw [hx.2]; exact Nat.two_pow_pos b

/-- `large_add_from` after the resize. -/
theorem largeAdd_core (c : Cfg) (x y : Limbs) (start m : Nat) (hx : LimbsOK (limbBits c) x) (hy : LimbsOK (limbBits c) y)
    (hl1 : y.length + start ≤ x.length) (hl2 : x.length ≤ m) (hcap : m ≤ bigintLimbs c)
    (hfit : bval (limbBits c) x + 2 ^ (limbBits c * start) * bval (limbBits c) y < 2 ^ (limbBits c * m)) :
    ∃ q r, largeAddLoop c (x.drop start) y false = .ok q ∧
      (if q.2 then smallAddFrom c (x.take start ++ q.1) 1 (y.length + start) else .ok (x.take start ++ q.1)) = .ok r ∧
      bval (limbBits c) r = bval (limbBits c) x + 2 ^ (limbBits c * start) * bval (limbBits c) y ∧ LimbsOK (limbBits c) r ∧
      r.length ≤ m := by
  have hd : LimbsOK (limbBits c) (x.drop start) := fun z hz => hx z (List.mem_of_mem_drop hz)
  have ht : LimbsOK (limbBits c) (x.take start) := fun z hz => hx z (List.mem_of_mem_take hz)
  obtain ⟨r, e, a1, a2, a3⟩ := largeAddLoop_spec c y (x.drop start) false hd hy (by rw [List.length_drop]; omega)
  refine ⟨r, ?_⟩
  have hst : start ≤ x.length := by omega
  have hsplit : bval (limbBits c) x = bval (limbBits c) (x.take start) + 2 ^ (limbBits c * start) * bval (limbBits c) (x.drop start) := by
    conv_lhs => rw [← List.take_append_drop start x]
    rw [bval_append, List.length_take, Nat.min_eq_left hst]
  have hlen : (x.take start ++ r.1).length = x.length := by
    rw [List.length_append, a3, ← List.length_append, List.take_append_drop]
  have hval : bval (limbBits c) (x.take start ++ r.1) + 2 ^ (limbBits c * (y.length + start)) * (if r.2 then 1 else 0) =
      bval (limbBits c) x + 2 ^ (limbBits c * start) * bval (limbBits c) y := by
    rw [bval_append, List.length_take, Nat.min_eq_left hst, hsplit, Nat.mul_add, pow_add]
    simp only [Bool.false_eq_true, if_false, Nat.add_zero] at a1
    calc _ = bval (limbBits c) (x.take start) + 2 ^ (limbBits c * start) * (bval (limbBits c) r.1 + 2 ^ (limbBits c * y.length) * (if r.2 then 1 else 0)) := by ring
      _ = _ := by rw [a1]; ring
  have hok2 := ht.append a2
  cases hr : r.2
  · simp only [Bool.false_eq_true, if_false]
    rw [hr] at hval
    refine ⟨_, e, rfl, by simpa using hval, hok2, by rw [hlen]; exact hl2⟩
  · simp only [if_true]
    rw [hr] at hval
    simp only [if_true] at hval
    have h1 : 1 < 2 ^ limbBits c := Nat.one_lt_two_pow (by have := limbBits_pos c; omega)
    obtain ⟨r', e', b1, b2, b3, b4, _, b5⟩ := smallAddFrom_spec c (x.take start ++ r.1) 1 (y.length + start) hok2 h1
      (by rw [hlen]; exact hl1) (by
        rw [hlen, hval]
        rcases Nat.lt_or_ge x.length m with h | h
        · right; omega
        · left; rw [show x.length = m by omega]; exact hfit)
    refine ⟨r', e, e', by rw [b1, hval], b2, ?_⟩
    rw [hlen] at b3 b4 b5
    rcases Nat.lt_or_ge m r'.length with h | h
    · exfalso
      have hxm : x.length = m := by omega
      have := b5 (by omega)
      rw [hval, hxm] at this
      omega
    · exact h

/-- `large_add_from`, length-based: the sum must fit the larger of the two extents. -/
theorem largeAddFrom_spec (c : Cfg) (x y : Limbs) (start m : Nat) (hx : LimbsOK (limbBits c) x) (hy : LimbsOK (limbBits c) y)
    (hm1 : x.length ≤ m) (hm2 : y.length + start ≤ m) (hcap : m ≤ bigintLimbs c)
    (hfit : bval (limbBits c) x + 2 ^ (limbBits c * start) * bval (limbBits c) y < 2 ^ (limbBits c * m)) :
    ∃ r, largeAddFrom c x y start = .ok r ∧
      bval (limbBits c) r = bval (limbBits c) x + 2 ^ (limbBits c * start) * bval (limbBits c) y ∧ LimbsOK (limbBits c) r ∧
      r.length ≤ m := by
  unfold largeAddFrom
  simp only [bind, Except.bind, pure, Except.pure]
  by_cases h : x.length < start ∨ y.length > x.length - start
  · rw [if_pos h, if_neg (by omega)]
    simp only
    have hb : bval (limbBits c) (x ++ List.replicate (y.length + start - x.length) 0) = bval (limbBits c) x := by
      rw [bval_append, bval_replicate_zero]; simp
    obtain ⟨q, r, e1, e2, e3, e4, e5⟩ := largeAdd_core c (x ++ List.replicate (y.length + start - x.length) 0) y start m
      (hx.append (LimbsOK_replicate _ _)) hy (by simp; omega) (by simp; omega) hcap (by rw [hb]; exact hfit)
    rw [e1]
    exact ⟨r, e2, by rw [e3, hb], e4, e5⟩
  · rw [if_neg h]
    obtain ⟨q, r, e1, e2, e3, e4, e5⟩ := largeAdd_core c x y start m hx hy (by omega) hm1 hcap hfit
    rw [e1]
    exact ⟨r, e2, e3, e4, e5⟩

/-! ### normalize -/

theorem dropZeros_spec (b : Nat) : ∀ r : Limbs, LimbsOK b r →
    bval b (dropZeros r).reverse = bval b r.reverse ∧ LimbsOK b (dropZeros r) ∧ (dropZeros r).length ≤ r.length ∧
    (∀ x xs, dropZeros r = x :: xs → x ≠ 0) := by
  intro r
  induction r with
  | nil => intro _; simp [dropZeros, LimbsOK]
  | cons x xs ih =>
    intro h
    simp only [dropZeros]
    by_cases hx : x = 0
    · rw [if_pos hx]
      obtain ⟨a1, a2, a3, a4⟩ := ih (fun z hz => h z (List.mem_cons_of_mem _ hz))
      refine ⟨?_, a2, by simp; omega, a4⟩
      rw [a1, List.reverse_cons, bval_append, hx]; simp [bval]
    · rw [if_neg hx]
      refine ⟨rfl, h, le_rfl, ?_⟩
      intro y ys hy
      simp at hy; rw [← hy.1]; exact hx

theorem Norm_of_top {b : Nat} {v : Limbs} (h : ∀ x xs, v.reverse = x :: xs → x ≠ 0) : Norm b v := by
  intro hne
  cases hr : v.reverse with
  | nil => exact absurd (List.reverse_eq_nil_iff.1 hr) hne
  | cons x xs =>
    have hx := h x xs hr
    have hv : v = xs.reverse ++ [x] := by
      rw [← List.reverse_reverse v, hr, List.reverse_cons]
    rw [hv, bval_append]
    simp only [List.length_append, List.length_singleton, Nat.add_sub_cancel, bval, Nat.mul_zero, Nat.add_zero]
    have : 2 ^ (b * xs.reverse.length) * 1 ≤ 2 ^ (b * xs.reverse.length) * x := Nat.mul_le_mul_left _ (by omega)
    omega

theorem normalize_spec (b : Nat) (v : Limbs) (h : LimbsOK b v) :
    bval b (normalize v) = bval b v ∧ LimbsOK b (normalize v) ∧ (normalize v).length ≤ v.length ∧ Norm b (normalize v) := by
  have hr : LimbsOK b v.reverse := fun z hz => h z (List.mem_reverse.1 hz)
  obtain ⟨a1, a2, a3, a4⟩ := dropZeros_spec b v.reverse hr
  unfold normalize
  refine ⟨by rw [a1, List.reverse_reverse], fun z hz => a2 z (List.mem_reverse.1 hz), by simpa using a3, Norm_of_top ?_⟩
  rw [List.reverse_reverse]; exact a4

/-! ### long_mul -/

theorem longMulLoop_spec (c : Cfg) (z : Limbs) (m : Nat) (hz : LimbsOK (limbBits c) z) :
    ∀ (ys : Limbs) (index : Nat) (x : Limbs), LimbsOK (limbBits c) ys → LimbsOK (limbBits c) x →
    x.length ≤ m → z.length + ys.length + index ≤ m → m ≤ bigintLimbs c → z.length < bigintLimbs c →
    bval (limbBits c) x + 2 ^ (limbBits c * index) * (bval (limbBits c) z * bval (limbBits c) ys) < 2 ^ (limbBits c * m) →
    ∃ r, longMulLoop c z ys index x = .ok r ∧
      bval (limbBits c) r = bval (limbBits c) x + 2 ^ (limbBits c * index) * (bval (limbBits c) z * bval (limbBits c) ys) ∧
      LimbsOK (limbBits c) r ∧ r.length ≤ m := by
  intro ys
  induction ys with
  | nil =>
    intro index x _ hx hl _ _ _ _
    exact ⟨x, rfl, by simp [bval], hx, hl⟩
  | cons y ys ih =>
    intro index x hys hx hl hl2 hcap hzc hfit
    have y1 := hys y List.mem_cons_self
    have yr : LimbsOK (limbBits c) ys := fun w hw => hys w (List.mem_cons_of_mem _ hw)
    simp only [List.length_cons] at hl2
    have hexp : 2 ^ (limbBits c * index) * (bval (limbBits c) z * bval (limbBits c) (y :: ys)) =
        2 ^ (limbBits c * index) * (bval (limbBits c) z * y) +
        2 ^ (limbBits c * (index + 1)) * (bval (limbBits c) z * bval (limbBits c) ys) := by
      simp only [bval, Nat.mul_add, Nat.mul_one, pow_add]; ring
    rw [hexp] at hfit ⊢
    simp only [longMulLoop, bind, Except.bind, pure, Except.pure]
    by_cases hy0 : y ≠ 0
    · rw [if_pos hy0]
      obtain ⟨zi, e1, a1, a2, a3, a4, _⟩ := smallMul_spec c z y hz y1 hzc
      rw [e1]
      simp only
      obtain ⟨x', e2, b1, b2, b3⟩ := largeAddFrom_spec c x zi index m hx a2 hl (by omega) hcap (by rw [a1]; omega)
      rw [e2]
      simp only
      obtain ⟨r, e3, d1, d2, d3⟩ := ih (index + 1) x' yr b2 b3 (by omega) hcap hzc (by rw [b1, a1]; omega)
      exact ⟨r, e3, by rw [d1, b1, a1]; ring, d2, d3⟩
    · rw [if_neg hy0]
      have hy : y = 0 := by omega
      subst hy
      simp only [Nat.mul_zero, Nat.zero_add] at hfit ⊢
      exact ih (index + 1) x yr hx hl (by omega) hcap hzc hfit

theorem longMul_spec (c : Cfg) (x y : Limbs) (hx : LimbsOK (limbBits c) x) (hy : LimbsOK (limbBits c) y) (hy0 : y ≠ [])
    (hcap : x.length + y.length ≤ bigintLimbs c) :
    ∃ r, longMul c x y = .ok r ∧ bval (limbBits c) r = bval (limbBits c) x * bval (limbBits c) y ∧ LimbsOK (limbBits c) r ∧
      Norm (limbBits c) r := by
  cases y with
  | nil => exact absurd rfl hy0
  | cons y0 ys =>
    have y1 := hy y0 List.mem_cons_self
    have yr : LimbsOK (limbBits c) ys := fun w hw => hy w (List.mem_cons_of_mem _ hw)
    simp only [List.length_cons] at hcap
    unfold longMul
    simp only [bind, Except.bind, pure, Except.pure]
    obtain ⟨x', e1, a1, a2, a3, a4, _⟩ := smallMul_spec c x y0 hx y1 (by omega)
    rw [e1]
    simp only
    have hexp : bval (limbBits c) x * bval (limbBits c) (y0 :: ys) =
        bval (limbBits c) x * y0 + 2 ^ (limbBits c * 1) * (bval (limbBits c) x * bval (limbBits c) ys) := by
      simp only [bval, Nat.mul_one]; ring
    have hfit : bval (limbBits c) x * bval (limbBits c) (y0 :: ys) < 2 ^ (limbBits c * (x.length + (ys.length + 1))) := by
      rw [Nat.mul_add, pow_add]
      exact Nat.mul_lt_mul'' (bval_lt hx) (by simpa using bval_lt hy)
    obtain ⟨r, e2, b1, b2, b3⟩ := longMulLoop_spec c x (x.length + (ys.length + 1)) hx ys 1 x' yr a2 (by omega) (by omega)
      hcap (by omega) (by rw [a1, ← hexp]; exact hfit)
    rw [e2]
    obtain ⟨n1, n2, n3, n4⟩ := normalize_spec (limbBits c) r b2
    exact ⟨_, rfl, by rw [n1, b1, a1, hexp], n2, n4⟩

/-! ### powers of five -/

theorem largePowerOf5_spec (c : Cfg) : bval (limbBits c) (largePowerOf5 c) = 5 ^ 135 ∧
    LimbsOK (limbBits c) (largePowerOf5 c) ∧ (largePowerOf5 c).length = (if c.limb64 then 5 else 10) := by
  unfold largePowerOf5 limbBits
  cases c.limb64
  · simp only [Bool.false_eq_true, if_false]
    refine ⟨by decide +kernel, ?_, rfl⟩
    unfold LimbsOK; decide +kernel
  · simp only [if_true]
    refine ⟨by decide +kernel, ?_, rfl⟩
    unfold LimbsOK; decide +kernel

/-- Length of a normalised vector from a bound on its value. -/
theorem len_of_norm (c : Cfg) {v : Limbs} (hn : Norm (limbBits c) v) (hb : bval (limbBits c) v < 2 ^ 3200) :
    v.length + (if c.limb64 then 5 else 10) ≤ bigintLimbs c - 2 := by
  by_cases hne : v = []
  · subst hne; unfold bigintLimbs limbBits; cases c.limb64 <;> simp
  · have h1 := lt_of_le_of_lt (hn hne) hb
    have h2 := (Nat.pow_lt_pow_iff_right (by norm_num)).1 h1
    unfold bigintLimbs limbBits at *
    cases hc : c.limb64 <;> simp [hc] at * <;> omega

theorem Norm.ne_nil_of_pos {b : Nat} {v : Limbs} (h : 0 < bval b v) : v ≠ [] := by
  intro hc; subst hc; simp [bval] at h

theorem pow5Large_spec (c : Cfg) : ∀ (fuel exp : Nat) (v : Limbs), exp < fuel → LimbsOK (limbBits c) v → Norm (limbBits c) v →
    bval (limbBits c) v * 5 ^ exp < 2 ^ 3200 →
    ∃ r e, pow5Large c fuel v exp = .ok (r, e) ∧ e < 135 ∧ bval (limbBits c) r * 5 ^ e = bval (limbBits c) v * 5 ^ exp ∧
      LimbsOK (limbBits c) r ∧ Norm (limbBits c) r := by
  intro fuel
  induction fuel with
  | zero => intro exp v h; omega
  | succ fuel ih =>
    intro exp v hf hv hn hb
    unfold pow5Large
    by_cases h : exp ≥ largeStep
    · rw [if_pos h]
      unfold largeStep at h ⊢
      obtain ⟨p1, p2, p3⟩ := largePowerOf5_spec c
      have hle : bval (limbBits c) v ≤ bval (limbBits c) v * 5 ^ exp := Nat.le_mul_of_pos_right _ (by positivity)
      have hlen := len_of_norm c hn (lt_of_le_of_lt hle hb)
      have hmul : largeMul c v (largePowerOf5 c) = longMul c v (largePowerOf5 c) := by
        unfold largeMul largePowerOf5
        split
        · rename_i heq; split at heq <;> simp at heq
        · rfl
      obtain ⟨r, e1, a1, a2, a3⟩ := longMul_spec c v (largePowerOf5 c) hv p2 (by
        intro hc; rw [hc] at p3; simp at p3; split at p3 <;> omega) (by rw [p3]; omega)
      rw [hmul, e1]
      simp only [bind, Except.bind]
      have he : bval (limbBits c) r * 5 ^ (exp - 135) = bval (limbBits c) v * 5 ^ exp := by
        have hs : 135 + (exp - 135) = exp := by clear hb hle; omega
        rw [a1, p1, Nat.mul_assoc, ← pow_add, hs]
      obtain ⟨r', e', b1, b2, b3, b4, b5⟩ := ih (exp - 135) r (by omega) a2 a3 (by rw [he]; exact hb)
      exact ⟨r', e', b1, b2, by rw [b3, he], b4, b5⟩
    · rw [if_neg h]
      unfold largeStep at h
      exact ⟨v, exp, rfl, by omega, rfl, hv, hn⟩

theorem maxNative_eq (c : Cfg) : maxNative c = 5 ^ smallStep c ∧ maxNative c < 2 ^ limbBits c ∧ 1 ≤ smallStep c ∧ smallStep c ≤ 27 := by
  unfold maxNative smallStep limbBits
  cases c.limb64 <;> simp

theorem pow5Small_spec (c : Cfg) : ∀ (fuel exp : Nat) (v : Limbs), exp < fuel → LimbsOK (limbBits c) v → Norm (limbBits c) v →
    bval (limbBits c) v * 5 ^ exp < 2 ^ 3200 →
    ∃ r e, pow5Small c fuel v exp = .ok (r, e) ∧ e < smallStep c ∧ bval (limbBits c) r * 5 ^ e = bval (limbBits c) v * 5 ^ exp ∧
      LimbsOK (limbBits c) r ∧ Norm (limbBits c) r := by
  intro fuel
  induction fuel with
  | zero => intro exp v h; omega
  | succ fuel ih =>
    intro exp v hf hv hn hb
    unfold pow5Small
    obtain ⟨m1, m2, m3, m4⟩ := maxNative_eq c
    by_cases h : exp ≥ smallStep c
    · rw [if_pos h]
      have hle : bval (limbBits c) v ≤ bval (limbBits c) v * 5 ^ exp := Nat.le_mul_of_pos_right _ (by positivity)
      have hlen := len_of_norm c hn (lt_of_le_of_lt hle hb)
      have hcl : v.length < bigintLimbs c := by
        have : 2 < bigintLimbs c := by unfold bigintLimbs limbBits; cases c.limb64 <;> simp
        split at hlen <;> omega
      obtain ⟨r, e1, a1, a2, _, _, a3⟩ := smallMul_spec c v (maxNative c) hv m2 hcl
      rw [e1]
      simp only [bind, Except.bind]
      have he : bval (limbBits c) r * 5 ^ (exp - smallStep c) = bval (limbBits c) v * 5 ^ exp := by
        rw [a1, m1, Nat.mul_assoc, ← pow_add]; congr 2; omega
      obtain ⟨r', e', b1, b2, b3, b4, b5⟩ := ih (exp - smallStep c) r (by omega) a2
        (a3 (by rw [m1]; positivity) hn) (by rw [he]; exact hb)
      exact ⟨r', e', b1, b2, by rw [b3, he], b4, b5⟩
    · rw [if_neg h]
      exact ⟨v, exp, rfl, by omega, rfl, hv, hn⟩

theorem smallPowerOf5_get (e : Nat) (h : e < 28) : tableGet smallPowerOf5 e = .ok (5 ^ e) := by
  interval_cases e <;> decide +kernel

theorem bigPow5_spec (c : Cfg) (v : Limbs) (exp : Nat) (hv : LimbsOK (limbBits c) v) (hn : Norm (limbBits c) v)
    (hb : bval (limbBits c) v * 5 ^ exp < 2 ^ 3200) :
    ∃ r, bigPow5 c v exp = .ok r ∧ bval (limbBits c) r = bval (limbBits c) v * 5 ^ exp ∧ LimbsOK (limbBits c) r ∧
      Norm (limbBits c) r := by
  obtain ⟨r1, e1, a1, a2, a3, a4, a5⟩ := pow5Large_spec c (exp + 1) exp v (by omega) hv hn hb
  obtain ⟨r2, e2, b1, b2, b3, b4, b5⟩ := pow5Small_spec c (e1 + 1) e1 r1 (by omega) a4 a5 (by rw [a3]; exact hb)
  obtain ⟨m1, m2, m3, m4⟩ := maxNative_eq c
  unfold bigPow5
  simp only [bind, Except.bind, pure, Except.pure, a1, b1]
  by_cases h : e2 ≠ 0
  · rw [if_pos h, smallPowerOf5_get e2 (by omega)]
    simp only
    have hlt : 5 ^ e2 < 2 ^ limbBits c := by
      refine lt_of_le_of_lt ?_ m2
      rw [m1]; exact Nat.pow_le_pow_right (by norm_num) b2.le
    rw [Nat.mod_eq_of_lt hlt]
    have hle : bval (limbBits c) r2 ≤ bval (limbBits c) r2 * 5 ^ e2 := Nat.le_mul_of_pos_right _ (by positivity)
    have hlen := len_of_norm c b5 (by rw [b3, a3] at hle; exact lt_of_le_of_lt hle hb)
    have hcl : r2.length < bigintLimbs c := by
      have : 2 < bigintLimbs c := by unfold bigintLimbs limbBits; cases c.limb64 <;> simp
      split at hlen <;> omega
    obtain ⟨r, e, d1, d2, _, _, d3⟩ := smallMul_spec c r2 (5 ^ e2) b4 hlt hcl
    exact ⟨r, e, by rw [d1, b3, a3], d2, d3 (by positivity) b5⟩
  · rw [if_neg h]
    have : e2 = 0 := by omega
    subst this
    exact ⟨r2, rfl, by rw [← a3, ← b3]; simp, b4, b5⟩

end FastFloat
