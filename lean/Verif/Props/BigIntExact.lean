import Verif.Proofs.BigIntTop
/-
# C68: big-integer arithmetic up to the full capacity

`bigint` is a fixed-size vector: 62 limbs of 64 bits or 125 limbs of 32 bits.  The slow path stays far away from that size (C26); the theorems here say what
the operations do for every operand that fits, up to the last limb.
-/
set_option linter.unusedSimpArgs false
set_option autoImplicit false
namespace FastFloat

/-- The first number that does not fit: `2^3968` with 64-bit limbs, `2^4000` with 32-bit limbs. -/
def bigLimit (c : Cfg) : Nat := if c.limb64 then 2 ^ 3968 else 2 ^ 4000

/-- The vector is the canonical representation of `V`: at most as many limbs as there is room for, each in range, the last one (the most significant)
not zero, and the weighted sum of the limbs is `V`. -/
structure IsBig (c : Cfg) (v : Limbs) (V : Nat) : Prop where
  room : v.length ≤ bigintLimbs c
  limbs : ∀ x ∈ v, x < 2 ^ limbBits c
  top : v.getLast? ≠ some 0
  value : (v.zipIdx.map fun p => p.1 * 2 ^ (limbBits c * p.2)).sum = V

/-- An operation computes `V` exactly if `V` fits, and fails cleanly if it does not. -/
structure Computes (c : Cfg) (op : Exec Limbs) (V : Nat) : Prop where
  exact : V < bigLimit c → ∃ r, op = .ok r ∧ IsBig c r V
  fails : bigLimit c ≤ V → op = .error .capacity

set_option exponentiation.threshold 5000 in
theorem bigLimit_eq (c : Cfg) : bigLimit c = 2 ^ (limbBits c * bigintLimbs c) := by
  unfold bigLimit limbBits bigintLimbs limbBits
  cases c.limb64 <;> simp

theorem bval_sum (b : Nat) : ∀ (v : Limbs) (k : Nat), ((v.zipIdx k).map fun p => p.1 * 2 ^ (b * p.2)).sum = 2 ^ (b * k) * bval b v := by
  intro v
  induction v with
  | nil => intro k; simp [bval]
  | cons x xs ih =>
    intro k
    rw [List.zipIdx_cons, List.map_cons, List.sum_cons, ih, bval, Nat.mul_add, Nat.mul_one, pow_add]
    ring

theorem bval_sum0 (b : Nat) (v : Limbs) : (v.zipIdx.map fun p => p.1 * 2 ^ (b * p.2)).sum = bval b v := by
  rw [bval_sum]; simp

theorem norm_of_last {b : Nat} {v : Limbs} (h : v.getLast? ≠ some 0) : Norm b v := by
  apply Norm_of_top
  intro x xs hx hx0
  apply h
  rw [List.getLast?_eq_head?_reverse, hx, hx0]; rfl

theorem last_of_norm {b : Nat} {v : Limbs} (hv : LimbsOK b v) (hn : Norm b v) : v.getLast? ≠ some 0 := by
  intro h
  obtain ⟨low, rfl⟩ : ∃ low, v = low ++ [0] := by
    rw [List.getLast?_eq_some_iff] at h; exact h
  exact norm_top (fun z hz => hv z (List.mem_append_left _ hz)) hn rfl

/-- The internal form of `IsBig`. -/
structure Big (c : Cfg) (v : Limbs) (V : Nat) : Prop where
  room : v.length ≤ bigintLimbs c
  ok : LimbsOK (limbBits c) v
  norm : Norm (limbBits c) v
  val : bval (limbBits c) v = V

theorem isBig_iff {c : Cfg} {v : Limbs} {V : Nat} : IsBig c v V ↔ Big c v V := by
  constructor
  · intro h; exact ⟨h.room, h.limbs, norm_of_last h.top, by rw [← bval_sum0]; exact h.value⟩
  · intro h; exact ⟨h.room, h.ok, last_of_norm h.ok h.norm, by rw [bval_sum0]; exact h.val⟩

theorem pow_le_of_le {b m n : Nat} (h : m ≤ n) : 2 ^ (b * m) ≤ 2 ^ (b * n) := Nat.pow_le_pow_right (by norm_num) (Nat.mul_le_mul_left _ h)

theorem Big.lt {c : Cfg} {v : Limbs} {V : Nat} (h : Big c v V) : V < bigLimit c := by
  rw [bigLimit_eq, ← h.val]
  exact lt_of_lt_of_le (bval_lt h.ok) (pow_le_of_le h.room)

/-- The form in which the proofs use `Computes`. -/
theorem computes_iff {c : Cfg} {op : Exec Limbs} {V : Nat} :
    Computes c op V ↔ (∃ r, op = .ok r ∧ Big c r V) ∨ (op = .error .capacity ∧ bigLimit c ≤ V) := by
  constructor
  · intro h
    rcases Nat.lt_or_ge V (bigLimit c) with hl | hl
    · obtain ⟨r, h1, h2⟩ := h.exact hl
      exact Or.inl ⟨r, h1, isBig_iff.1 h2⟩
    · exact Or.inr ⟨h.fails hl, hl⟩
  · rintro (⟨r, h1, h2⟩ | ⟨h1, h2⟩)
    · have := h2.lt
      exact ⟨fun _ => ⟨r, h1, isBig_iff.2 h2⟩, fun h => by omega⟩
    · exact ⟨fun h => by omega, fun _ => h1⟩

/-- Pushing a carry: it fails exactly if the number does not fit. -/
theorem push_full (c : Cfg) (v : Limbs) (k V : Nat) (hroom : v.length ≤ bigintLimbs c) (hv : LimbsOK (limbBits c) v) (hk : k < 2 ^ limbBits c)
    (hV : bval (limbBits c) v + 2 ^ (limbBits c * v.length) * k = V) :
    (∃ r, (if k ≠ 0 then tryPush c v k else .ok v) = .ok r ∧ bval (limbBits c) r = V ∧ LimbsOK (limbBits c) r ∧ r.length ≤ bigintLimbs c ∧
      v.length ≤ r.length ∧ r.length ≤ v.length + 1 ∧ (r.length = v.length + 1 → 2 ^ (limbBits c * v.length) ≤ V)) ∨
    ((if k ≠ 0 then tryPush c v k else .ok v) = .error .capacity ∧ bigLimit c ≤ V) := by
  by_cases h : k ≠ 0 ∧ v.length = bigintLimbs c
  · refine Or.inr ⟨?_, ?_⟩
    · rw [if_pos h.1]; unfold tryPush; rw [if_neg (by omega)]
    · rw [bigLimit_eq, ← h.2, ← hV]
      have : 2 ^ (limbBits c * v.length) * 1 ≤ 2 ^ (limbBits c * v.length) * k := Nat.mul_le_mul_left _ (by omega)
      omega
  · obtain ⟨r, e, h1, h2, h3, h4, h5⟩ := push_spec c v k V hv hk hV (by omega)
    refine Or.inl ⟨r, e, h1, h2, ?_, h3, h4, h5⟩
    by_cases hk0 : k = 0
    · subst hk0
      rw [if_neg (by simp)] at e
      have := Except.ok.inj e
      subst this; exact hroom
    · omega

theorem smallMul_full (c : Cfg) (v : Limbs) (y : Nat) (hroom : v.length ≤ bigintLimbs c) (hv : LimbsOK (limbBits c) v) (hy : y < 2 ^ limbBits c) :
    (∃ r, smallMul c v y = .ok r ∧ bval (limbBits c) r = bval (limbBits c) v * y ∧ LimbsOK (limbBits c) r ∧ r.length ≤ bigintLimbs c ∧
      v.length ≤ r.length ∧ (y ≠ 0 → Norm (limbBits c) v → Norm (limbBits c) r)) ∨
    (smallMul c v y = .error .capacity ∧ bigLimit c ≤ bval (limbBits c) v * y) := by
  obtain ⟨a1, a2, a3, a4⟩ := mulLoop_spec c y hy v 0 hv (Nat.two_pow_pos _)
  unfold smallMul
  simp only
  rcases push_full c (mulLoop c y v 0).1 (mulLoop c y v 0).2 (bval (limbBits c) v * y) (by rw [a4]; exact hroom) a2 a3 (by rw [a4]; simpa using a1) with
    ⟨r, e, hr1, hr2, hr0, hr3, hr4, hr5⟩ | ⟨e, h⟩
  · rw [a4] at hr3 hr4 hr5
    refine Or.inl ⟨r, e, hr1, hr2, hr0, hr3, fun hy0 hn hne => ?_⟩
    rw [hr1]
    rcases Nat.lt_or_ge v.length r.length with h | h
    · rw [show r.length - 1 = v.length by omega]; exact hr5 (by omega)
    · have hl : r.length = v.length := by omega
      rw [hl]
      have hvne : v ≠ [] := by
        intro hc; subst hc; simp at hl; exact hne hl
      calc 2 ^ (limbBits c * (v.length - 1)) ≤ bval (limbBits c) v := hn hvne
        _ ≤ _ := Nat.le_mul_of_pos_right _ (by omega)
  · exact Or.inr ⟨e, h⟩

theorem smallAddFrom_full (c : Cfg) (v : Limbs) (y start : Nat) (hroom : v.length ≤ bigintLimbs c) (hv : LimbsOK (limbBits c) v) (hy : y < 2 ^ limbBits c)
    (hs : start ≤ v.length) :
    (∃ r, smallAddFrom c v y start = .ok r ∧ bval (limbBits c) r = bval (limbBits c) v + 2 ^ (limbBits c * start) * y ∧
      LimbsOK (limbBits c) r ∧ r.length ≤ bigintLimbs c ∧ (Norm (limbBits c) v → Norm (limbBits c) r)) ∨
    (smallAddFrom c v y start = .error .capacity ∧ bigLimit c ≤ bval (limbBits c) v + 2 ^ (limbBits c * start) * y) := by
  rcases Nat.lt_or_ge (bval (limbBits c) v + 2 ^ (limbBits c * start) * y) (2 ^ (limbBits c * v.length)) with hl | hl
  · obtain ⟨r, h1, h2, h3, h4, h5, h6, h7⟩ := smallAddFrom_spec c v y start hv hy hs (Or.inl hl)
    refine Or.inl ⟨r, h1, h2, h3, ?_, h6⟩
    by_contra hc
    have := h7 (by omega)
    omega
  · rcases Nat.lt_or_ge v.length (bigintLimbs c) with hc | hc
    · obtain ⟨r, h1, h2, h3, h4, h5, h6, h7⟩ := smallAddFrom_spec c v y start hv hy hs (Or.inr hc)
      exact Or.inl ⟨r, h1, h2, h3, by omega, h6⟩
    · have hL : v.length = bigintLimbs c := by omega
      refine Or.inr ⟨?_, by rw [bigLimit_eq, ← hL]; exact hl⟩
      have hd : LimbsOK (limbBits c) (v.drop start) := fun x hx => hv x (List.mem_of_mem_drop hx)
      have ht : LimbsOK (limbBits c) (v.take start) := fun x hx => hv x (List.mem_of_mem_take hx)
      obtain ⟨a1, a2, a3, a4⟩ := addCarryLoop_spec c (v.drop start) y hd hy
      have hsplit : bval (limbBits c) v = bval (limbBits c) (v.take start) + 2 ^ (limbBits c * start) * bval (limbBits c) (v.drop start) := by
        conv_lhs => rw [← List.take_append_drop start v]
        rw [bval_append, List.length_take, Nat.min_eq_left hs]
      have hlen : (v.take start ++ (addCarryLoop c (v.drop start) y).1).length = v.length := by
        rw [List.length_append, a4, ← List.length_append, List.take_append_drop]
      have hV : bval (limbBits c) (v.take start ++ (addCarryLoop c (v.drop start) y).1) +
          2 ^ (limbBits c * v.length) * (addCarryLoop c (v.drop start) y).2 =
          bval (limbBits c) v + 2 ^ (limbBits c * start) * y := by
        rw [bval_append, List.length_take, Nat.min_eq_left hs, hsplit]
        have e : 2 ^ (limbBits c * v.length) = 2 ^ (limbBits c * start) * 2 ^ (limbBits c * (v.drop start).length) := by
          rw [← pow_add, ← Nat.mul_add, List.length_drop]; congr 2; omega
        rw [e]
        calc _ = bval (limbBits c) (v.take start) + 2 ^ (limbBits c * start) * (bval (limbBits c) (addCarryLoop c (v.drop start) y).1 +
              2 ^ (limbBits c * (v.drop start).length) * (addCarryLoop c (v.drop start) y).2) := by ring
          _ = _ := by rw [a1]; ring
      have hb := bval_lt (ht.append a2)
      rw [hlen] at hb
      have hne : (addCarryLoop c (v.drop start) y).2 ≠ 0 := by
        intro h0
        rw [h0, Nat.mul_zero, Nat.add_zero] at hV
        omega
      unfold smallAddFrom
      simp only
      rw [if_pos hne]
      unfold tryPush
      rw [if_neg (by rw [hlen]; omega)]

theorem largeAdd_tail (c : Cfg) (x y : Limbs) (start : Nat) (hroom : x.length ≤ bigintLimbs c) (hx : LimbsOK (limbBits c) x) (hy : LimbsOK (limbBits c) y)
    (hl1 : y.length + start ≤ x.length) (hbig : bigLimit c ≤ bval (limbBits c) x + 2 ^ (limbBits c * start) * bval (limbBits c) y) :
    ∃ r, largeAddLoop c (x.drop start) y false = .ok r ∧
      (if r.2 then smallAddFrom c (x.take start ++ r.1) 1 (y.length + start) else .ok (x.take start ++ r.1)) = .error .capacity := by
  have hd : LimbsOK (limbBits c) (x.drop start) := fun z hz => hx z (List.mem_of_mem_drop hz)
  have ht : LimbsOK (limbBits c) (x.take start) := fun z hz => hx z (List.mem_of_mem_take hz)
  obtain ⟨r, e, a1, a2, a3⟩ := largeAddLoop_spec c y (x.drop start) false hd hy (by rw [List.length_drop]; omega)
  refine ⟨r, e, ?_⟩
  have hst : start ≤ x.length := by omega
  have hsplit : bval (limbBits c) x = bval (limbBits c) (x.take start) + 2 ^ (limbBits c * start) * bval (limbBits c) (x.drop start) := by
    conv_lhs => rw [← List.take_append_drop start x]
    rw [bval_append, List.length_take, Nat.min_eq_left hst]
  have hlen : (x.take start ++ r.1).length = x.length := by
    rw [List.length_append, a3, ← List.length_append, List.take_append_drop]
  have hval : bval (limbBits c) (x.take start ++ r.1) + 2 ^ (limbBits c * (y.length + start)) * (if r.2 then 1 else 0) =
      bval (limbBits c) x + 2 ^ (limbBits c * start) * bval (limbBits c) y := by
    rw [bval_append, List.length_take, Nat.min_eq_left hst, hsplit, Nat.mul_add, pow_add]
    simp only [Bool.false_eq_true, if_false, Nat.add_zero] at a1
    calc _ = bval (limbBits c) (x.take start) + 2 ^ (limbBits c * start) * (bval (limbBits c) r.1 + 2 ^ (limbBits c * y.length) * (if r.2 then 1 else 0)) := by ring
      _ = _ := by rw [a1]; ring
  have hok2 := ht.append a2
  rw [← hval] at hbig
  cases hr : r.2
  · exfalso
    rw [hr] at hbig
    simp only [Bool.false_eq_true, if_false, Nat.mul_zero, Nat.add_zero] at hbig
    have h1 := bval_lt hok2
    rw [hlen] at h1
    have h2 := pow_le_of_le (b := limbBits c) hroom
    rw [bigLimit_eq] at hbig
    omega
  · simp only [if_true]
    rw [hr] at hbig
    simp only [if_true] at hbig
    have h1 : 1 < 2 ^ limbBits c := Nat.one_lt_two_pow (by have := limbBits_pos c; omega)
    rcases smallAddFrom_full c (x.take start ++ r.1) 1 (y.length + start) (by rw [hlen]; exact hroom) hok2 h1 (by rw [hlen]; exact hl1) with
      ⟨r', e', b1, b2, b3, _⟩ | ⟨e', _⟩
    · exfalso
      have h3 := bval_lt b2
      have h4 := pow_le_of_le (b := limbBits c) b3
      rw [bigLimit_eq] at hbig
      omega
    · exact e'

theorem largeAddFrom_full (c : Cfg) (x y : Limbs) (start : Nat) (hroom : x.length ≤ bigintLimbs c) (hx : LimbsOK (limbBits c) x) (hy : LimbsOK (limbBits c) y)
    (hy0 : y ≠ []) (hn : Norm (limbBits c) y) :
    (∃ r, largeAddFrom c x y start = .ok r ∧ bval (limbBits c) r = bval (limbBits c) x + 2 ^ (limbBits c * start) * bval (limbBits c) y ∧
      LimbsOK (limbBits c) r ∧ r.length ≤ bigintLimbs c) ∨
    (largeAddFrom c x y start = .error .capacity ∧ bigLimit c ≤ bval (limbBits c) x + 2 ^ (limbBits c * start) * bval (limbBits c) y) := by
  have hyl := List.length_pos_iff.2 hy0
  rcases Nat.lt_or_ge (bval (limbBits c) x + 2 ^ (limbBits c * start) * bval (limbBits c) y) (bigLimit c) with hl | hl
  · left
    have hfit : y.length + start ≤ bigintLimbs c := by
      have h1 : 2 ^ (limbBits c * start) * 2 ^ (limbBits c * (y.length - 1)) < 2 ^ (limbBits c * bigintLimbs c) := by
        rw [← bigLimit_eq]
        have := Nat.mul_le_mul_left (2 ^ (limbBits c * start)) (hn hy0)
        omega
      rw [← pow_add, ← Nat.mul_add] at h1
      have h2 := Nat.lt_of_mul_lt_mul_left ((Nat.pow_lt_pow_iff_right (by norm_num)).1 h1)
      omega
    obtain ⟨r, h1, h2, h3, h4⟩ := largeAddFrom_spec c x y start (bigintLimbs c) hx hy hroom hfit le_rfl (by rw [← bigLimit_eq]; exact hl)
    exact ⟨r, h1, h2, h3, h4⟩
  · right
    refine ⟨?_, hl⟩
    unfold largeAddFrom
    simp only [bind, Except.bind, pure, Except.pure]
    by_cases h : x.length < start ∨ y.length > x.length - start
    · rw [if_pos h]
      by_cases hcap : y.length + start > bigintLimbs c
      · rw [if_pos hcap]
      · rw [if_neg hcap]
        simp only
        have hb : bval (limbBits c) (x ++ List.replicate (y.length + start - x.length) 0) = bval (limbBits c) x := by
          rw [bval_append, bval_replicate_zero]; simp
        obtain ⟨r, e1, e2⟩ := largeAdd_tail c (x ++ List.replicate (y.length + start - x.length) 0) y start (by simp; omega)
          (hx.append (LimbsOK_replicate _ _)) hy (by simp; omega) (by rw [hb]; exact hl)
        rw [e1]
        exact e2
    · rw [if_neg h]
      obtain ⟨r, e1, e2⟩ := largeAdd_tail c x y start hroom hx hy (by omega) hl
      rw [e1]
      exact e2

theorem longMulLoop_full (c : Cfg) (z : Limbs) (hzr : z.length ≤ bigintLimbs c) (hz : LimbsOK (limbBits c) z) (hz0 : z ≠ []) (hn : Norm (limbBits c) z) :
    ∀ (ys : Limbs) (index : Nat) (x : Limbs), LimbsOK (limbBits c) ys → LimbsOK (limbBits c) x → x.length ≤ bigintLimbs c →
    (∃ r, longMulLoop c z ys index x = .ok r ∧
      bval (limbBits c) r = bval (limbBits c) x + 2 ^ (limbBits c * index) * (bval (limbBits c) z * bval (limbBits c) ys) ∧
      LimbsOK (limbBits c) r ∧ r.length ≤ bigintLimbs c) ∨
    (longMulLoop c z ys index x = .error .capacity ∧
      bigLimit c ≤ bval (limbBits c) x + 2 ^ (limbBits c * index) * (bval (limbBits c) z * bval (limbBits c) ys)) := by
  intro ys
  induction ys with
  | nil =>
    intro index x _ hx hl
    exact Or.inl ⟨x, rfl, by simp [bval], hx, hl⟩
  | cons y ys ih =>
    intro index x hys hx hl
    have y1 := hys y List.mem_cons_self
    have yr : LimbsOK (limbBits c) ys := fun w hw => hys w (List.mem_cons_of_mem _ hw)
    have hexp : 2 ^ (limbBits c * index) * (bval (limbBits c) z * bval (limbBits c) (y :: ys)) =
        2 ^ (limbBits c * index) * (bval (limbBits c) z * y) +
        2 ^ (limbBits c * (index + 1)) * (bval (limbBits c) z * bval (limbBits c) ys) := by
      simp only [bval, Nat.mul_add, Nat.mul_one, pow_add]; ring
    rw [hexp]
    simp only [longMulLoop, bind, Except.bind, pure, Except.pure]
    by_cases hy0 : y ≠ 0
    · rw [if_pos hy0]
      rcases smallMul_full c z y hzr hz y1 with ⟨zi, e1, a1, a2, a3, a4, a5⟩ | ⟨e1, h1⟩
      · rw [e1]
        simp only
        have hzi : zi ≠ [] := by
          intro hc; rw [hc] at a4
          exact hz0 (List.length_eq_zero_iff.1 (by simpa using a4))
        rcases largeAddFrom_full c x zi index hl hx a2 hzi (a5 hy0 hn) with ⟨x', e2, b1, b2, b3⟩ | ⟨e2, h2⟩
        · rw [e2]
          simp only
          rcases ih (index + 1) x' yr b2 b3 with ⟨r, e3, d1, d2, d3⟩ | ⟨e3, h3⟩
          · exact Or.inl ⟨r, e3, by rw [d1, b1, a1]; ring, d2, d3⟩
          · exact Or.inr ⟨e3, by rw [b1, a1] at h3; omega⟩
        · rw [e2]
          exact Or.inr ⟨rfl, by rw [a1] at h2; omega⟩
      · rw [e1]
        refine Or.inr ⟨rfl, ?_⟩
        have := Nat.le_mul_of_pos_left (bval (limbBits c) z * y) (Nat.two_pow_pos (limbBits c * index))
        omega
    · rw [if_neg hy0]
      have hy : y = 0 := by omega
      subst hy
      simp only [Nat.mul_zero, Nat.zero_add]
      exact ih (index + 1) x yr hx hl

theorem longMul_full {c : Cfg} {x y : Limbs} {X Y : Nat} (hx : Big c x X) (hy : Big c y Y) (hX : 0 < X) (hY : 0 < Y) : Computes c (longMul c x y) (X * Y) := by
  rw [computes_iff]
  have hxne : x ≠ [] := Norm.ne_nil_of_pos (b := limbBits c) (by rw [hx.val]; exact hX)
  have hxv := hx.val
  have hyv := hy.val
  cases y with
  | nil => rw [← hyv] at hY; simp [bval] at hY
  | cons y0 ys =>
    have y1 := hy.ok y0 List.mem_cons_self
    have yr : LimbsOK (limbBits c) ys := fun w hw => hy.ok w (List.mem_cons_of_mem _ hw)
    have hexp : X * Y = X * y0 + 2 ^ (limbBits c * 1) * (X * bval (limbBits c) ys) := by
      rw [← hyv]; simp only [bval, Nat.mul_one]; ring
    unfold longMul
    simp only [bind, Except.bind, pure, Except.pure]
    rcases smallMul_full c x y0 hx.room hx.ok y1 with ⟨x', e1, a1, a2, a3, _, _⟩ | ⟨e1, h1⟩
    · rw [e1]
      simp only
      rcases longMulLoop_full c x hx.room hx.ok hxne hx.norm ys 1 x' yr a2 a3 with ⟨r, e2, b1, b2, b3⟩ | ⟨e2, h2⟩
      · rw [e2]
        obtain ⟨n1, n2, n3, n4⟩ := normalize_spec (limbBits c) r b2
        exact Or.inl ⟨_, rfl, ⟨by omega, n2, n4, by rw [n1, b1, a1, hxv, hexp]⟩⟩
      · rw [e2]
        exact Or.inr ⟨rfl, by rw [a1, hxv, ← hexp] at h2; exact h2⟩
    · rw [e1]
      exact Or.inr ⟨rfl, by rw [hxv] at h1; omega⟩

theorem smallMul_computes {c : Cfg} {v : Limbs} {V y : Nat} (hv : Big c v V) (hy : y < 2 ^ limbBits c) (hy0 : y ≠ 0) : Computes c (smallMul c v y) (V * y) := by
  rw [computes_iff]
  have h := hv.val
  rcases smallMul_full c v y hv.room hv.ok hy with ⟨r, e, a1, a2, a3, a4, a5⟩ | ⟨e, h1⟩
  · exact Or.inl ⟨r, e, a3, a2, a5 hy0 hv.norm, by rw [a1, h]⟩
  · exact Or.inr ⟨e, by rw [← h]; exact h1⟩

theorem largeMul_pow5 (c : Cfg) (v : Limbs) : largeMul c v (largePowerOf5 c) = longMul c v (largePowerOf5 c) := by
  unfold largeMul largePowerOf5
  split
  · rename_i heq; split at heq <;> simp at heq
  · rfl

theorem largePowerOf5_big (c : Cfg) : Big c (largePowerOf5 c) (5 ^ 135) := by
  obtain ⟨h1, h2, h3⟩ := largePowerOf5_spec c
  refine ⟨?_, h2, ?_, h1⟩
  · rw [h3]; unfold bigintLimbs limbBits; cases c.limb64 <;> simp
  · apply norm_of_last
    unfold largePowerOf5
    cases c.limb64 <;> decide

theorem pow5Large_full (c : Cfg) : ∀ (fuel exp : Nat) (v : Limbs) (V : Nat), exp < fuel → Big c v V → 0 < V →
    (∃ r e R, pow5Large c fuel v exp = .ok (r, e) ∧ e < 135 ∧ R * 5 ^ e = V * 5 ^ exp ∧ Big c r R ∧ 0 < R) ∨
    (pow5Large c fuel v exp = .error .capacity ∧ bigLimit c ≤ V * 5 ^ exp) := by
  intro fuel
  induction fuel with
  | zero => intro exp v V h; omega
  | succ fuel ih =>
    intro exp v V hf hv hpos
    unfold pow5Large
    by_cases h : exp ≥ largeStep
    · rw [if_pos h, largeMul_pow5]
      unfold largeStep at h ⊢
      have hsplit : 5 ^ exp = 5 ^ 135 * 5 ^ (exp - 135) := by rw [← pow_add, Nat.add_sub_cancel' h]
      rcases computes_iff.1 (longMul_full hv (largePowerOf5_big c) hpos (Nat.pow_pos (by decide))) with ⟨r, e1, hr⟩ | ⟨e1, h1⟩
      · rw [e1]
        simp only [bind, Except.bind]
        have he : V * 5 ^ 135 * 5 ^ (exp - 135) = V * 5 ^ exp := by rw [hsplit, Nat.mul_assoc]
        rcases ih (exp - 135) r _ (by omega) hr (by positivity) with ⟨r', e', R, b1, b2, b3, b4, b5⟩ | ⟨e2, h2⟩
        · exact Or.inl ⟨r', e', R, b1, b2, by rw [b3, he], b4, b5⟩
        · exact Or.inr ⟨e2, by rw [← he]; exact h2⟩
      · rw [e1]
        refine Or.inr ⟨rfl, le_trans h1 ?_⟩
        rw [hsplit, ← Nat.mul_assoc]
        exact Nat.le_mul_of_pos_right _ (by positivity)
    · rw [if_neg h]
      unfold largeStep at h
      exact Or.inl ⟨v, exp, V, rfl, by omega, rfl, hv, hpos⟩

theorem pow5Small_full (c : Cfg) : ∀ (fuel exp : Nat) (v : Limbs) (V : Nat), exp < fuel → Big c v V → 0 < V →
    (∃ r e R, pow5Small c fuel v exp = .ok (r, e) ∧ e < smallStep c ∧ R * 5 ^ e = V * 5 ^ exp ∧ Big c r R ∧ 0 < R) ∨
    (pow5Small c fuel v exp = .error .capacity ∧ bigLimit c ≤ V * 5 ^ exp) := by
  intro fuel
  induction fuel with
  | zero => intro exp v V h; omega
  | succ fuel ih =>
    intro exp v V hf hv hpos
    unfold pow5Small
    obtain ⟨m1, m2, m3, m4⟩ := maxNative_eq c
    by_cases h : exp ≥ smallStep c
    · rw [if_pos h]
      have hsplit : 5 ^ exp = maxNative c * 5 ^ (exp - smallStep c) := by rw [m1, ← pow_add]; congr 1; omega
      have hmp : 0 < maxNative c := by rw [m1]; positivity
      rcases computes_iff.1 (smallMul_computes hv m2 (by omega)) with ⟨r, e1, hr⟩ | ⟨e1, h1⟩
      · rw [e1]
        simp only [bind, Except.bind]
        have he : V * maxNative c * 5 ^ (exp - smallStep c) = V * 5 ^ exp := by rw [hsplit, Nat.mul_assoc]
        rcases ih (exp - smallStep c) r _ (by omega) hr (by positivity) with ⟨r', e', R, b1, b2, b3, b4, b5⟩ | ⟨e2, h2⟩
        · exact Or.inl ⟨r', e', R, b1, b2, by rw [b3, he], b4, b5⟩
        · exact Or.inr ⟨e2, by rw [← he]; exact h2⟩
      · rw [e1]
        refine Or.inr ⟨rfl, le_trans h1 ?_⟩
        rw [hsplit, ← Nat.mul_assoc]
        exact Nat.le_mul_of_pos_right _ (by positivity)
    · rw [if_neg h]
      exact Or.inl ⟨v, exp, V, rfl, by omega, rfl, hv, hpos⟩

theorem bigPow5_full {c : Cfg} {v : Limbs} {V : Nat} (exp : Nat) (hv : Big c v V) (hpos : 0 < V) : Computes c (bigPow5 c v exp) (V * 5 ^ exp) := by
  rw [computes_iff]
  obtain ⟨m1, m2, m3, m4⟩ := maxNative_eq c
  unfold bigPow5
  rcases pow5Large_full c (exp + 1) exp v V (by omega) hv hpos with ⟨r1, e1, R1, a1, a2, a3, a4, a5⟩ | ⟨a1, h1⟩
  · simp only [bind, Except.bind, pure, Except.pure, a1]
    rcases pow5Small_full c (e1 + 1) e1 r1 R1 (by omega) a4 a5 with ⟨r2, e2, R2, b1, b2, b3, b4, b5⟩ | ⟨b1, h2⟩
    · simp only [b1]
      by_cases h : e2 ≠ 0
      · rw [if_pos h, smallPowerOf5_get e2 (by omega)]
        simp only
        have hlt : 5 ^ e2 < 2 ^ limbBits c := by
          refine lt_of_le_of_lt ?_ m2
          rw [m1]; exact Nat.pow_le_pow_right (by norm_num) b2.le
        rw [Nat.mod_eq_of_lt hlt]
        have := computes_iff.1 (smallMul_computes b4 hlt (by positivity))
        rw [b3, a3] at this
        exact this
      · rw [if_neg h]
        have : e2 = 0 := by omega
        subst this
        refine Or.inl ⟨r2, rfl, ?_⟩
        rw [pow_zero, Nat.mul_one] at b3
        rw [← a3, ← b3]; exact b4
    · simp only [b1]
      exact Or.inr ⟨trivial, by rw [← a3]; exact h2⟩
  · simp only [bind, Except.bind, pure, Except.pure, a1]
    exact Or.inr ⟨trivial, h1⟩

theorem shlBits_full {c : Cfg} {v : Limbs} {V n : Nat} (hv : Big c v V) (h0 : n ≠ 0) (hlt : n < limbBits c) : Computes c (shlBits c v n) (V * 2 ^ n) := by
  rw [computes_iff]
  obtain ⟨a1, a2, a3, a4⟩ := shlBitsLoop_spec (limbBits c) n hlt v 0 hv.ok (Nat.two_pow_pos _)
  have hval := hv.val
  unfold shlBits
  rw [if_neg (by omega)]
  simp only
  have hk : (shlBitsLoop (limbBits c) n v 0).2 / 2 ^ (limbBits c - n) < 2 ^ limbBits c :=
    lt_of_le_of_lt (Nat.div_le_self _ _) a3
  rcases push_full c (shlBitsLoop (limbBits c) n v 0).1 _ (V * 2 ^ n) (by rw [a4]; exact hv.room) a2 hk (by rw [a4, ← hval]; simpa using a1) with
    ⟨r, e, hr1, hr2, hr0, hr3, hr4, hr5⟩ | ⟨e, h⟩
  · refine Or.inl ⟨r, e, hr0, hr2, ?_, hr1⟩
    rw [a4] at hr3 hr4 hr5
    intro hne
    rw [hr1]
    rcases Nat.lt_or_ge v.length r.length with h | h
    · have := hr5 (by omega)
      have e : r.length - 1 = v.length := by omega
      rw [e]; exact this
    · have e : r.length = v.length := by omega
      rw [e]
      have hvne : v ≠ [] := by
        intro hc; rw [hc] at e; simp at e; exact hne e
      rw [← hval]
      exact le_trans (hv.norm hvne) (Nat.le_mul_of_pos_right _ (Nat.two_pow_pos n))
  · exact Or.inr ⟨e, h⟩

theorem shlLimbs_full {c : Cfg} {v : Limbs} {V n : Nat} (hv : Big c v V) (hpos : 0 < V) : Computes c (shlLimbs c v n) (V * 2 ^ (limbBits c * n)) := by
  rw [computes_iff]
  have hne : v ≠ [] := Norm.ne_nil_of_pos (b := limbBits c) (by rw [hv.val]; exact hpos)
  have hl := List.length_pos_iff.2 hne
  have hnorm := hv.norm hne
  rw [hv.val] at hnorm
  have e : limbBits c * (n + v.length - 1) = limbBits c * (v.length - 1) + limbBits c * n := by
    rw [← Nat.mul_add]; congr 1; omega
  have hlow : 2 ^ (limbBits c * (n + v.length - 1)) ≤ V * 2 ^ (limbBits c * n) := by
    rw [e, pow_add]; exact Nat.mul_le_mul_right _ hnorm
  unfold shlLimbs
  by_cases h : n + v.length > bigintLimbs c
  · rw [if_pos h]
    refine Or.inr ⟨rfl, ?_⟩
    rw [bigLimit_eq]
    exact le_trans (pow_le_of_le (by omega)) hlow
  · rw [if_neg h, if_pos (by omega)]
    have hval : bval (limbBits c) (List.replicate n 0 ++ v) = V * 2 ^ (limbBits c * n) := by
      rw [bval_append, bval_replicate_zero, List.length_replicate, hv.val]; ring
    refine Or.inl ⟨_, rfl, by simp; omega, (LimbsOK_replicate _ _).append hv.ok, ?_, hval⟩
    intro _
    rw [hval, List.length_append, List.length_replicate]
    exact hlow

theorem bigShl_full {c : Cfg} {v : Limbs} {V : Nat} (n : Nat) (hv : Big c v V) (hpos : 0 < V) : Computes c (bigShl c v n) (V * 2 ^ n) := by
  rw [computes_iff]
  have hlb := limbBits_pos c
  have hdm := Nat.div_add_mod n (limbBits c)
  have hrw : bigShl c v n = (match (if n % limbBits c ≠ 0 then shlBits c v (n % limbBits c) else .ok v) with
      | .error e => .error e
      | .ok v => if n / limbBits c ≠ 0 then shlLimbs c v (n / limbBits c) else .ok v) := by
    unfold bigShl
    simp only [bind, Except.bind, pure, Except.pure]
    by_cases h : n % limbBits c ≠ 0
    · rw [if_pos h, if_pos h]
      cases shlBits c v (n % limbBits c) <;> rfl
    · rw [if_neg h, if_neg h]
  rw [hrw]
  have hpow : V * 2 ^ (n % limbBits c) * 2 ^ (limbBits c * (n / limbBits c)) = V * 2 ^ n := by
    rw [Nat.mul_assoc, ← pow_add, Nat.add_comm, hdm]
  have step1 : (∃ r, (if n % limbBits c ≠ 0 then shlBits c v (n % limbBits c) else .ok v) = .ok r ∧ Big c r (V * 2 ^ (n % limbBits c))) ∨
      ((if n % limbBits c ≠ 0 then shlBits c v (n % limbBits c) else .ok v) = .error .capacity ∧ bigLimit c ≤ V * 2 ^ (n % limbBits c)) := by
    by_cases h : n % limbBits c ≠ 0
    · rw [if_pos h]
      exact computes_iff.1 (shlBits_full hv h (Nat.mod_lt _ (by omega)))
    · rw [if_neg h]
      refine Or.inl ⟨v, rfl, ?_⟩
      rw [not_not.1 h, pow_zero, Nat.mul_one]; exact hv
  rcases step1 with ⟨r, e, hr⟩ | ⟨e, h1⟩
  · rw [e]
    simp only
    by_cases h : n / limbBits c ≠ 0
    · rw [if_pos h]
      have := computes_iff.1 (shlLimbs_full (n := n / limbBits c) hr (by positivity))
      rw [hpow] at this
      exact this
    · rw [if_neg h]
      rw [not_not.1 h, Nat.mul_zero, pow_zero, Nat.mul_one] at hpow
      exact Or.inl ⟨r, rfl, by rw [← hpow]; exact hr⟩
  · rw [e]
    refine Or.inr ⟨rfl, le_trans h1 ?_⟩
    rw [← hpow]
    exact Nat.le_mul_of_pos_right _ (Nat.two_pow_pos _)

/-! ### The claim -/

/-- **C68**, `bigint(uint64_t)`. -/
theorem C68_of_u64 (c : Cfg) {x : Nat} (h : x < 2 ^ 64) : IsBig c (bigOfU64 c x) x := by
  obtain ⟨h1, h2, h3⟩ := bigOfU64_spec c x h
  refine isBig_iff.2 ⟨?_, h2, h3, h1⟩
  by_contra hc
  by_cases hne : bigOfU64 c x = []
  · rw [hne] at hc; simp at hc
  · have h4 := h3 hne
    rw [h1] at h4
    have h5 : 2 ^ 64 ≤ 2 ^ (limbBits c * ((bigOfU64 c x).length - 1)) := by
      apply Nat.pow_le_pow_right (by norm_num)
      have e1 : limbBits c = 64 ∧ bigintLimbs c = 62 ∨ limbBits c = 32 ∧ bigintLimbs c = 125 := by
        unfold bigintLimbs limbBits; cases c.limb64 <;> simp
      rcases e1 with ⟨a, b⟩ | ⟨a, b⟩ <;> rw [a] <;> omega
    omega

/-- **C68**, uniqueness: a number has one representation only, so the vectors below are determined by their values. -/
theorem C68_unique {c : Cfg} {v w : Limbs} {V : Nat} (hv : IsBig c v V) (hw : IsBig c w V) : v = w := by
  replace hv := isBig_iff.1 hv
  replace hw := isBig_iff.1 hw
  have hlen : v.length = w.length := by
    have key : ∀ u t : Limbs, Big c u V → Big c t V → u.length ≤ t.length := by
      intro u t hu ht
      by_contra hc
      have h1 := hu.norm (by intro h; rw [h] at hc; simp at hc)
      have h2 := bval_lt ht.ok
      rw [hu.val] at h1
      rw [ht.val] at h2
      have := pow_le_of_le (b := limbBits c) (show t.length ≤ u.length - 1 by omega)
      omega
    exact le_antisymm (key v w hv hw) (key w v hw hv)
  have hval : bval (limbBits c) v = bval (limbBits c) w := by rw [hv.val, hw.val]
  have hvo := hv.ok
  have hwo := hw.ok
  clear hv hw
  revert hlen hval hvo hwo
  revert w
  induction v with
  | nil => intro w hlen _ _ _; exact (List.length_eq_zero_iff.1 hlen.symm).symm
  | cons x xs ih =>
    intro w hlen hval hvo hwo
    cases w with
    | nil => simp at hlen
    | cons y ys =>
      have hx := hvo x List.mem_cons_self
      have hy := hwo y List.mem_cons_self
      simp only [bval] at hval
      have hm : (x + 2 ^ limbBits c * bval (limbBits c) xs) % 2 ^ limbBits c = (y + 2 ^ limbBits c * bval (limbBits c) ys) % 2 ^ limbBits c := by rw [hval]
      rw [Nat.add_mul_mod_self_left, Nat.add_mul_mod_self_left, Nat.mod_eq_of_lt hx, Nat.mod_eq_of_lt hy] at hm
      subst hm
      have := Nat.eq_of_mul_eq_mul_left (Nat.two_pow_pos _) (Nat.add_left_cancel hval)
      rw [ih (by simpa using hlen) this (fun z hz => hvo z (List.mem_cons_of_mem _ hz)) (fun z hz => hwo z (List.mem_cons_of_mem _ hz))]

/-- **C68**, `small_mul`: multiplication by one (nonzero) limb. -/
theorem C68_small_mul {c : Cfg} {v : Limbs} {V y : Nat} (hv : IsBig c v V) (hy : y < 2 ^ limbBits c) (hy0 : y ≠ 0) : Computes c (smallMul c v y) (V * y) :=
  smallMul_computes (isBig_iff.1 hv) hy hy0

/-- **C68**, `small_add`: addition of one limb. -/
theorem C68_small_add {c : Cfg} {v : Limbs} {V y : Nat} (hv : IsBig c v V) (hy : y < 2 ^ limbBits c) : Computes c (smallAddFrom c v y 0) (V + y) := by
  have hv := isBig_iff.1 hv
  rw [computes_iff]
  rcases smallAddFrom_full c v y 0 hv.room hv.ok hy (Nat.zero_le _) with ⟨r, e, h1, h2, h3, h4⟩ | ⟨e, h⟩
  · exact Or.inl ⟨r, e, h3, h2, h4 hv.norm, by rw [h1, hv.val]; simp⟩
  · exact Or.inr ⟨e, by rw [hv.val] at h; simpa using h⟩

/-- **C68**, `long_mul`: multiplication. -/
theorem C68_long_mul {c : Cfg} {x y : Limbs} {X Y : Nat} (hx : IsBig c x X) (hy : IsBig c y Y) (hX : 0 < X) (hY : 0 < Y) :
    Computes c (longMul c x y) (X * Y) := longMul_full (isBig_iff.1 hx) (isBig_iff.1 hy) hX hY

/-- **C68**, `shl`: multiplication by a power of two. -/
theorem C68_shl {c : Cfg} {v : Limbs} {V : Nat} (n : Nat) (hv : IsBig c v V) (hV : 0 < V) : Computes c (bigShl c v n) (V * 2 ^ n) :=
  bigShl_full n (isBig_iff.1 hv) hV

/-- **C68**, `pow5`: multiplication by a power of five. -/
theorem C68_pow5 {c : Cfg} {v : Limbs} {V : Nat} (n : Nat) (hv : IsBig c v V) (hV : 0 < V) : Computes c (bigPow5 c v n) (V * 5 ^ n) :=
  bigPow5_full n (isBig_iff.1 hv) hV

/-- **C68**, `pow10`: multiplication by a power of ten. -/
theorem C68_pow10 {c : Cfg} {v : Limbs} {V : Nat} (n : Nat) (hv : IsBig c v V) (hV : 0 < V) : Computes c (bigPow10 c v n) (V * 10 ^ n) := by
  rw [computes_iff]
  have e10 : V * 5 ^ n * 2 ^ n = V * 10 ^ n := by rw [Nat.mul_assoc, ← Nat.mul_pow]
  unfold bigPow10
  rcases computes_iff.1 (bigPow5_full n (isBig_iff.1 hv) hV) with ⟨r, e, hr⟩ | ⟨e, h⟩
  · simp only [bind, Except.bind, e]
    have := computes_iff.1 (bigShl_full n hr (by positivity))
    rw [e10] at this
    exact this
  · simp only [bind, Except.bind, e]
    refine Or.inr ⟨trivial, le_trans h ?_⟩
    rw [← e10]
    exact Nat.le_mul_of_pos_right _ (Nat.two_pow_pos _)

/-- **C68**, `compare`: the sign of the result is the sign of the difference. -/
theorem C68_compare {c : Cfg} {x y : Limbs} {X Y : Nat} (hx : IsBig c x X) (hy : IsBig c y Y) :
    (bigCompare x y > 0 ↔ X > Y) ∧ (bigCompare x y < 0 ↔ X < Y) ∧ (bigCompare x y = 0 ↔ X = Y) := by
  have hx := isBig_iff.1 hx
  have hy := isBig_iff.1 hy
  obtain ⟨h1, h2⟩ := bigCompare_spec (limbBits c) x y hx.ok hy.ok hx.norm hy.norm
  rw [hx.val, hy.val] at h1 h2
  refine ⟨h1, h2, ?_⟩
  constructor <;> intro h
  · have : ¬ 0 < bigCompare x y := by omega
    have : ¬ bigCompare x y < 0 := by omega
    omega
  · have : ¬ 0 < bigCompare x y := by rw [h1]; omega
    have : ¬ bigCompare x y < 0 := by rw [h2]; omega
    omega

/-- **C68**, `hi64` and `bit_length`: the number of bits, the 64 most significant bits (shifted left if there are fewer), and whether a one bit was cut off. -/
theorem C68_hi64 {c : Cfg} {v : Limbs} {V : Nat} (hv : IsBig c v V) (hV : 0 < V) :
    ∃ (L m : Nat) (truncated : Bool), bitLength c v = .ok L ∧ hi64 c v = .ok (m, truncated) ∧
      2 ^ (L - 1) ≤ V ∧ V < 2 ^ L ∧ m = V * 2 ^ 64 / 2 ^ L ∧ (truncated = true ↔ ¬ 2 ^ L ∣ V * 2 ^ 64) := by
  have hv := isBig_iff.1 hv
  obtain ⟨m, tr, L, h1, h2, h3⟩ := hi64_spec c v hv.ok hv.norm (by rw [hv.val]; exact hV)
  rw [hv.val] at h3
  have hp : 0 < 2 ^ L := Nat.two_pow_pos L
  have hm : m = V * 2 ^ 64 / 2 ^ L := by
    symm
    rw [Nat.div_eq_iff hp]
    have := h3.le
    have := h3.lt
    have e : (m + 1) * 2 ^ L = m * 2 ^ L + 2 ^ L := by ring
    omega
  refine ⟨L, m, tr, h2, h1, ?_, ?_, hm, ?_⟩
  · cases L with
    | zero => simp; omega
    | succ L =>
      rw [Nat.add_sub_cancel]
      have h4 := le_trans (Nat.mul_le_mul_right (2 ^ (L + 1)) h3.lo) h3.le
      have e : 2 ^ 63 * 2 ^ (L + 1) = 2 ^ L * 2 ^ 64 := by rw [pow_succ]; ring
      rw [e] at h4
      exact Nat.le_of_mul_le_mul_right h4 (by norm_num)
  · have h4 := lt_of_lt_of_le h3.lt (Nat.mul_le_mul_right (2 ^ L) h3.hi)
    rw [Nat.mul_comm (2 ^ 64)] at h4
    exact Nat.lt_of_mul_lt_mul_right h4
  · rw [h3.tr_iff]
    constructor
    · rintro h ⟨k, hk⟩
      rw [hm, hk, Nat.mul_div_cancel_left _ hp, Nat.mul_comm] at h
      exact absurd h (lt_irrefl _)
    · intro h
      rcases Nat.lt_or_eq_of_le h3.le with h' | h'
      · exact h'
      · exact absurd ⟨m, by rw [← h', Nat.mul_comm]⟩ h

/-- Non-vacuity: a number of the full size (the top bit of the last limb set) exists, is represented, and one more doubling fails while adding one still works. -/
example (c : Cfg) : ∃ r, IsBig c r (2 ^ (limbBits c * bigintLimbs c - 1)) ∧ r.length = bigintLimbs c ∧ smallMul c r 2 = .error .capacity ∧
    ∃ s, smallAddFrom c r 1 0 = .ok s ∧ IsBig c s (2 ^ (limbBits c * bigintLimbs c - 1) + 1) := by
  have hN : 32 ≤ limbBits c ∧ 62 ≤ bigintLimbs c := by unfold bigintLimbs limbBits; cases c.limb64 <;> simp
  have hNN : 32 * 62 ≤ limbBits c * bigintLimbs c := Nat.mul_le_mul hN.1 hN.2
  have hlim := bigLimit_eq c
  obtain ⟨N, hNe⟩ : ∃ N, limbBits c * bigintLimbs c = N + 2 := ⟨limbBits c * bigintLimbs c - 2, by omega⟩
  have h1 := C68_of_u64 c (x := 1) (by norm_num)
  obtain ⟨r, _, hr⟩ := (C68_shl (N + 1) h1 (by norm_num)).exact (by
    rw [hlim, hNe, Nat.one_mul]; exact Nat.pow_lt_pow_right (by norm_num) (by omega))
  rw [Nat.one_mul] at hr
  have e : limbBits c * bigintLimbs c - 1 = N + 1 := by omega
  rw [e]
  have h2 : 2 ^ 1 < 2 ^ limbBits c := Nat.pow_lt_pow_right (by norm_num) (by omega)
  refine ⟨r, hr, ?_, (C68_small_mul hr (by simpa using h2) (by norm_num)).fails (by rw [hlim, hNe, pow_succ]),
    (C68_small_add hr (by omega)).exact (by
      rw [hlim, hNe, pow_succ 2 (N + 1)]
      have : 2 ^ 1 ≤ 2 ^ (N + 1) := Nat.pow_le_pow_right (by norm_num) (by omega)
      omega)⟩
  apply le_antisymm hr.room
  by_contra hc
  have hb := isBig_iff.1 hr
  have h3 := bval_lt hb.ok
  rw [hb.val] at h3
  have h4 : 2 ^ (limbBits c * r.length) ≤ 2 ^ (N + 1) := by
    apply Nat.pow_le_pow_right (by norm_num)
    have := Nat.mul_le_mul_left (limbBits c) (show r.length + 1 ≤ bigintLimbs c by omega)
    rw [hNe, Nat.mul_add] at this
    omega
  omega

end FastFloat
