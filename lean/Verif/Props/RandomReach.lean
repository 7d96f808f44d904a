import Verif.Props.RandomString
/-
# C89: the generators of random numerals miss no number
-/
set_option autoImplicit false
namespace FastFloat
open NumSpec Client

/-- From state `x` the source gives the words `ws`, one after the other, and is then in state `y`. -/
def Emits (rng : Rng) : Nat → List Nat → Nat → Prop
  | x, [], y => y = x
  | x, w :: ws, y => (rng x).1 = w ∧ Emits rng (rng x).2 ws y

theorem emits_append {rng : Rng} {a b : List Nat} : ∀ {x y : Nat}, Emits rng x (a ++ b) y → ∃ z, Emits rng x a z ∧ Emits rng z b y := by
  induction a with
  | nil => intro x y h; exact ⟨x, rfl, h⟩
  | cons w a ih =>
    intro x y h
    obtain ⟨z, h1, h2⟩ := ih h.2
    exact ⟨z, ⟨h.1, h1⟩, h2⟩

theorem emits_exists (ws : List Nat) : ∀ pre : List Nat, Emits (fun i => ((pre ++ ws).getD i 0, i + 1)) pre.length ws (pre.length + ws.length) := by
  induction ws with
  | nil => intro pre; rfl
  | cons w ws ih =>
    intro pre
    refine ⟨by simp, ?_⟩
    have := ih (pre ++ [w])
    simp only [List.append_assoc, List.singleton_append, List.length_append, List.length_singleton] at this
    simp only [List.length_cons]
    rw [show pre.length + (ws.length + 1) = pre.length + 1 + ws.length by omega]
    exact this

/-- Some words make `f` return `v`. -/
def Reach {α : Type} (f : Rng → Nat → Exec (α × Nat)) (v : α) : Prop :=
  ∃ ws : List Nat, (∀ w ∈ ws, w < 2 ^ 64) ∧ ∀ rng x y, Emits rng x ws y → f rng x = .ok (v, y)

theorem Reach.bind {α β : Type} {f : Rng → Nat → Exec (α × Nat)} {v : α} {g : α → Rng → Nat → Exec (β × Nat)} {u : β} {h : Rng → Nat → Exec (β × Nat)}
    (hf : Reach f v) (hg : Reach (g v) u) (e : ∀ rng x, h rng x = f rng x >>= fun r => g r.1 rng r.2) : Reach h u := by
  obtain ⟨a, ha, fa⟩ := hf
  obtain ⟨b, hb, gb⟩ := hg
  refine ⟨a ++ b, fun w hw => (List.mem_append.1 hw).elim (ha w) (hb w), fun rng x y hy => ?_⟩
  obtain ⟨z, h1, h2⟩ := emits_append hy
  rw [e, fa rng x z h1]
  exact gb rng z y h2

theorem Reach.ret {α : Type} {f : Rng → Nat → Exec (α × Nat)} {v : α} (e : ∀ rng x, f rng x = .ok (v, x)) : Reach f v :=
  ⟨[], by simp, fun rng x y hy => by rw [e]; cases hy; rfl⟩

theorem Reach.bool {β : Type} (b : Bool) {g : Bool → Rng → Nat → Exec (β × Nat)} {u : β} {h : Rng → Nat → Exec (β × Nat)}
    (hg : Reach (g b) u) (e : ∀ rng x, h rng x = g (nextBool rng x).1 rng (nextBool rng x).2) : Reach h u := by
  obtain ⟨a, ha, ga⟩ := hg
  refine ⟨(if b then 1 else 0) :: a, ?_, ?_⟩
  · intro w hw
    rcases List.mem_cons.1 hw with rfl | hw
    · cases b <;> norm_num
    · exact ha w hw
  · intro rng x y hy
    have hb : (nextBool rng x).1 = b := by
      unfold nextBool
      rw [hy.1]
      cases b <;> rfl
    rw [e, hb]
    exact ga rng _ y hy.2

theorem reach_draw (c : Cfg) (fuel : Nat) {lo hi v : Int} (hlo : -2 ^ 31 ≤ lo) (hhi : hi < 2 ^ 31) (hv : lo ≤ v) (hv' : v ≤ hi) (hs : hi - lo + 1 < 2 ^ 31) :
    Reach (fun rng x => nextRangedInt c rng (fuel + 1) lo hi x) v := by
  obtain ⟨s, e⟩ : ∃ s : Nat, (s : Int) = hi - lo + 1 := ⟨(hi - lo + 1).toNat, by omega⟩
  obtain ⟨k, hk⟩ : ∃ k : Nat, (k : Int) = v - lo := ⟨(v - lo).toNat, by omega⟩
  have hs1 : 1 ≤ s := by omega
  have hs31 : s < 2 ^ 31 := by omega
  have hks : k < s := by omega
  obtain ⟨w, hw⟩ : ∃ w, w = (k * 2 ^ 64 + 2 ^ 64 % s + (s - 1)) / s := ⟨_, rfl⟩
  have hpos : 0 < 2 ^ 64 / s := Nat.div_pos (by omega) (by omega)
  obtain ⟨h1, h2⟩ := (accepted_iff (s := s) (k := k) (w := w) hs1).2 ⟨hw.ge, by omega⟩
  have hlt : w < 2 ^ 64 := by
    by_contra hc
    have h1 : 2 ^ 64 * s ≤ w * s := Nat.mul_le_mul_right _ (by omega)
    have h2 : s ≤ w * s / 2 ^ 64 := by rw [Nat.le_div_iff_mul_le (by norm_num), Nat.mul_comm]; exact h1
    omega
  refine ⟨[w], by simpa using hlt, ?_⟩
  intro rng x y hy
  have e1 : (rng x).1 = w := hy.1
  have e2 : y = (rng x).2 := hy.2
  show nextRangedInt c rng (fuel + 1) lo hi x = _
  rw [single_draw c hlo hhi (by omega) e hs31 (by rw [e1]; exact hlt) (fuel + 1), e1, if_pos ⟨h1, Or.inr (by omega)⟩, h2, e2, show lo + (k : Int) = v by omega]

theorem reach_digit (c : Cfg) (fuel : Nat) {d : Nat} (hd : NumSpec.IsDigit d) : Reach (fun rng x => nextDigitChar c rng (fuel + 1) x) d := by
  unfold NumSpec.IsDigit at hd
  refine Reach.bind (g := fun v _ x => .ok ((v + 48).toNat, x)) (reach_draw c fuel (lo := 0) (hi := 9) (v := (d : Int) - 48) (by norm_num) (by norm_num) (by omega) (by omega) (by norm_num))
    (Reach.ret fun _ _ => ?_) (fun rng x => rfl)
  rw [show ((d : Int) - 48 + 48).toNat = d by omega]

theorem put_ok {cap : Nat} {buf : List Nat} (ch : Nat) (h : buf.length < cap) : put cap buf ch = .ok (buf ++ [ch]) := if_pos h

/-- The digits still to be written, with the point in front of the digit number `loc`. -/
def rest (loc : Nat) : Nat → List Nat → List Nat
  | _, [] => []
  | i, d :: ds => (if i = loc then [46] else []) ++ d :: rest loc (i + 1) ds

theorem rest_later (loc : Nat) (ds : List Nat) : ∀ i, loc < i → rest loc i ds = ds := by
  induction ds with
  | nil => intro i _; rfl
  | cons d ds ih => intro i h; rw [rest, if_neg (by omega), ih _ (by omega)]; rfl

theorem rest_front (loc : Nat) (a : List Nat) (b : List Nat) : ∀ i, i + a.length = loc → rest loc i (a ++ b) = a ++ (if b = [] then [] else 46 :: b) := by
  induction a with
  | nil =>
    intro i h
    cases b with
    | nil => rfl
    | cons d ds =>
      simp only [List.length_nil, Nat.add_zero] at h
      rw [List.nil_append, rest, if_pos h, rest_later _ _ _ (by omega)]
      simp
  | cons d a ih =>
    intro i h
    simp only [List.length_cons] at h
    rw [List.cons_append, rest, if_neg (by omega), ih _ (by omega)]
    simp

theorem reach_digits (c : Cfg) (fuel cap loc : Nat) (ds : List Nat) : ∀ (i : Nat) (buf : List Nat), (∀ d ∈ ds, NumSpec.IsDigit d) →
    (∀ d t, i = 0 → loc ≠ 1 → ds = d :: t → d ≠ 48) → buf.length + 2 * ds.length ≤ cap →
    Reach (fun rng x => digitsLoop c rng (fuel + 1) cap loc ds.length i x buf) (buf ++ rest loc i ds) := by
  induction ds with
  | nil =>
    intro i buf _ _ _
    exact Reach.ret fun _ _ => by simp [digitsLoop, rest]
  | cons d ds ih =>
    intro i buf hd hz hc
    simp only [List.length_cons] at hc ⊢
    have hp : putIf (i == loc) cap buf 46 = .ok (buf ++ if i = loc then [46] else []) := by
      unfold putIf
      by_cases h : i = loc
      · simp only [h, beq_self_eq_true, if_true]; exact put_ok _ (by omega)
      · simp [h]
    have hr : Reach (fun rng x => redraw c rng (fuel + 1) (i == 0 && 1 != loc) (fuel + 1) d x) d := by
      refine Reach.ret fun rng x => ?_
      rw [redraw, if_neg]
      simp only [Bool.and_eq_true, beq_iff_eq, bne_iff_ne, ne_eq, not_and]
      rintro ⟨h1, h2⟩
      exact hz d ds h1 (fun e => h2 e.symm) rfl
    have hlen : (buf ++ if i = loc then [46] else []).length ≤ buf.length + 1 := by split <;> simp
    have hq : put cap (buf ++ if i = loc then [46] else []) d = .ok ((buf ++ if i = loc then [46] else []) ++ [d]) := put_ok _ (by omega)
    have hrec := ih (i + 1) ((buf ++ if i = loc then [46] else []) ++ [d]) (fun u hu => hd u (List.mem_cons_of_mem _ hu)) (by intro _ _ h; omega)
      (by rw [List.length_append, List.length_singleton]; omega)
    have htarget : (buf ++ if i = loc then [46] else []) ++ [d] ++ rest loc (i + 1) ds = buf ++ rest loc i (d :: ds) := by
      rw [rest]; simp
    rw [htarget] at hrec
    refine Reach.bind (g := fun ch rng x => redraw c rng (fuel + 1) (i == 0 && 1 != loc) (fuel + 1) ch x >>= fun r =>
        put cap (buf ++ if i = loc then [46] else []) r.1 >>= fun b => digitsLoop c rng (fuel + 1) cap loc ds.length (i + 1) r.2 b)
      (reach_digit c fuel (hd d (List.mem_cons_self ..))) ?_ ?_
    · refine Reach.bind (g := fun ch rng x => put cap (buf ++ if i = loc then [46] else []) ch >>= fun b => digitsLoop c rng (fuel + 1) cap loc ds.length (i + 1) x b) hr ?_
        (fun _ _ => rfl)
      rw [hq]
      exact hrec
    · intro rng x
      show digitsLoop c rng (fuel + 1) cap loc (ds.length + 1) i x buf = _
      rw [digitsLoop, hp]
      rfl

theorem reach_exp (c : Cfg) (fuel cap : Nat) (ds : List Nat) : ∀ (buf : List Nat), (∀ d ∈ ds, NumSpec.IsDigit d) → buf.length + ds.length ≤ cap →
    Reach (fun rng x => expLoop c rng (fuel + 1) cap ds.length x buf) (buf ++ ds) := by
  induction ds with
  | nil => intro buf _ _; exact Reach.ret fun _ _ => by simp [expLoop]
  | cons d ds ih =>
    intro buf hd hc
    simp only [List.length_cons] at hc ⊢
    have hrec := ih (buf ++ [d]) (fun u hu => hd u (List.mem_cons_of_mem _ hu)) (by simp; omega)
    rw [List.append_assoc, List.singleton_append] at hrec
    refine Reach.bind (g := fun ch rng x => put cap buf ch >>= fun b => expLoop c rng (fuel + 1) cap ds.length x b) (reach_digit c fuel (hd d (List.mem_cons_self ..))) ?_
      (fun rng x => rfl)
    rw [put_ok d (by omega)]
    exact hrec

theorem reach_expSign (cap : Nat) (buf : List Nat) {sg : Option Nat} (hs : sg = none ∨ sg = some 43 ∨ sg = some 45) (hc : buf.length < cap) :
    Reach (fun rng x => Client.expSign rng cap x buf) (buf ++ sg.toList) := by
  refine Reach.bool (sg == some 45) (g := fun b rng y => if b then put cap buf 45 >>= fun t => .ok (t, y) else
    putIf (nextBool rng y).1 cap buf 43 >>= fun t => .ok (t, (nextBool rng y).2)) ?_ (fun rng x => rfl)
  rcases hs with rfl | rfl | rfl
  · refine Reach.bool false (g := fun b _ y => putIf b cap buf 43 >>= fun t => .ok (t, y)) (Reach.ret fun _ _ => ?_) (fun rng x => rfl)
    simp [putIf, bind, Except.bind]
  · refine Reach.bool true (g := fun b _ y => putIf b cap buf 43 >>= fun t => .ok (t, y)) (Reach.ret fun _ _ => ?_) (fun rng x => rfl)
    simp [putIf, put_ok 43 hc, bind, Except.bind]
  · refine Reach.ret fun _ _ => ?_
    simp [put_ok 45 hc, bind, Except.bind]

theorem reach_expPart (c : Cfg) (fuel cap : Nat) (buf : List Nat) {e : Option Exponent} (he : SmallExponent e) (hc : buf.length + 5 ≤ cap) :
    Reach (fun rng x => expPart c rng (fuel + 1) cap x buf) (buf ++ Numeral.expText e) := by
  let g2 : Bool → Rng → Nat → Exec (List Nat × Nat) := fun b rng y => put cap buf (if b then 101 else 69) >>= fun t => Client.expSign rng cap y t >>= fun r =>
        nextRangedInt c rng (fuel + 1) 1 3 r.2 >>= fun n => expLoop c rng (fuel + 1) cap n.1.toNat n.2 r.1
  let g1 : Bool → Rng → Nat → Exec (List Nat × Nat) := fun b rng y => if b then g2 (nextBool rng y).1 rng (nextBool rng y).2 else .ok (buf, y)
  rcases he with rfl | ⟨m, sg, ds, rfl, hm, hsg, h1, h3, hd⟩
  · refine Reach.bool false (g := g1) (Reach.ret fun _ _ => ?_) (fun rng x => rfl)
    simp [Numeral.expText, g1]
  · refine Reach.bool true (g := g1) ?_ (fun rng x => rfl)
    refine Reach.bool (m == 101) (g := g2) ?_ (fun rng x => rfl)
    simp only [g2]
    have e1 : (if (m == 101) = true then 101 else 69) = m := by rcases hm with rfl | rfl <;> rfl
    rw [e1, put_ok m (by omega)]
    refine Reach.bind (g := fun t rng y => nextRangedInt c rng (fuel + 1) 1 3 y >>= fun n => expLoop c rng (fuel + 1) cap n.1.toNat n.2 t)
      (reach_expSign cap (buf ++ [m]) hsg (by simp; omega)) ?_ (fun rng x => rfl)
    refine Reach.bind (g := fun n rng y => expLoop c rng (fuel + 1) cap n.toNat y (buf ++ [m] ++ sg.toList))
      (reach_draw c fuel (lo := 1) (hi := 3) (v := (ds.length : Int)) (by norm_num) (by norm_num) (by omega) (by omega) (by norm_num)) ?_ (fun rng x => rfl)
    have hsl : sg.toList.length ≤ 1 := by rcases hsg with rfl | rfl | rfl <;> simp
    have := reach_exp c fuel cap ds (buf ++ [m] ++ sg.toList) hd (by simp; omega)
    simp only [Int.toNat_natCast]
    have e2 : buf ++ Numeral.expText (some ⟨some m, sg, ds⟩) = buf ++ [m] ++ sg.toList ++ ds := by simp [Numeral.expText, Exponent.text]
    rw [e2]
    exact this

theorem reach_count (c : Cfg) (fuel : Nat) (short : Bool) {k : Nat} (h1 : 1 ≤ k) (h2 : k ≤ if short then 19 else 2000) :
    Reach (fun rng x => numberOfDigits c rng (fuel + 1) short x) (k : Int) := by
  cases short with
  | true =>
    simp only [if_true] at h2
    exact reach_draw c fuel (lo := 1) (hi := 19) (v := (k : Int)) (by norm_num) (by norm_num) (by omega) (by omega) (by norm_num)
  | false =>
    simp only [Bool.false_eq_true, if_false] at h2
    by_cases h : k < 100
    · refine Reach.bind (g := fun v rng x => if v = 100 then nextRangedInt c rng (fuel + 1) 1 2000 x else .ok (v, x))
        (reach_draw c fuel (lo := 1) (hi := 100) (v := (k : Int)) (by norm_num) (by norm_num) (by omega) (by omega) (by norm_num)) (Reach.ret fun _ _ => ?_) (fun rng x => rfl)
      rw [if_neg (by omega)]
    · refine Reach.bind (g := fun v rng x => if v = 100 then nextRangedInt c rng (fuel + 1) 1 2000 x else .ok (v, x))
        (reach_draw c fuel (lo := 1) (hi := 100) (v := 100) (by norm_num) (by norm_num) (by omega) (by omega) (by norm_num)) ?_ (fun rng x => rfl)
      simp only [if_true]
      exact reach_draw c fuel (lo := 1) (hi := 2000) (v := (k : Int)) (by norm_num) (by norm_num) (by omega) (by omega) (by norm_num)

/-- **C89**: the generators miss no number: every JSON number of at most 19 or 2000 digits with an exponent of at most three digits is what they leave for some
source of 64-bit words. -/
theorem C89_reaches_all (c : Cfg) (short : Bool) {n : Numeral} (hn : Made short n) {fuel : Nat} (hf : 0 < fuel) :
    ∃ (rng : Rng) (x y : Nat), (∀ i, (rng i).1 < 2 ^ 64) ∧ buildRandomString c rng fuel 4096 short x = .ok (n.text 46, y) := by
  obtain ⟨fuel, rfl⟩ : ∃ k, fuel = k + 1 := ⟨fuel - 1, by omega⟩
  have hcount : n.digits.length ≤ 2000 := by have := hn.count; cases short <;> simp at this <;> omega
  have hint : 1 ≤ n.int.length := List.length_pos_of_ne_nil hn.int
  have hlen : n.int.length ≤ n.digits.length := by unfold Numeral.digits; rw [List.length_append]; omega
  have hsl : n.sign.toList.length ≤ 1 := by rcases hn.sign with h | h <;> rw [h] <;> simp
  have hrest : rest n.int.length 0 n.digits = n.int ++ Numeral.fracText 46 n.frac := by
    unfold Numeral.digits
    rw [rest_front _ _ _ 0 (by omega)]
    cases hfr : n.frac with
    | none => simp [Numeral.fracText]
    | some ds =>
      have : ds ≠ [] := fun h => hn.frac (by rw [hfr, h])
      simp [Numeral.fracText, this]
  have hdots : (n.sign.toList ++ (n.int ++ Numeral.fracText 46 n.frac)).length ≤ 2002 := by
    have : (n.int ++ Numeral.fracText 46 n.frac).length ≤ n.digits.length + 1 := by
      unfold Numeral.digits
      cases n.frac <;> simp [Numeral.fracText]
      omega
    rw [List.length_append]; omega
  have hel : (Numeral.expText n.exp).length ≤ 5 := by
    rcases hn.exp with h | ⟨m, sg, ds, h, hm, hsg, h1, h3, hd⟩
    · rw [h]; simp [Numeral.expText]
    · rw [h]
      have : sg.toList.length ≤ 1 := by rcases hsg with rfl | rfl | rfl <;> simp
      simp [Numeral.expText, Exponent.text]; omega
  have main : Reach (fun rng x => buildRandomString c rng (fuel + 1) 4096 short x) (n.text 46) := by
    refine Reach.bool (n.sign == some 45) (g := fun b rng y => putIf b 4096 [] 45 >>= fun buf => numberOfDigits c rng (fuel + 1) short y >>= fun k =>
      nextRangedInt c rng (fuel + 1) 1 k.1 k.2 >>= fun loc => digitsLoop c rng (fuel + 1) 4096 loc.1.toNat k.1.toNat 0 loc.2 buf >>= fun r =>
      expPart c rng (fuel + 1) 4096 r.2 r.1 >>= fun r => put 4096 r.1 0 >>= fun _ => .ok r) ?_ (fun rng x => rfl)
    have e1 : putIf (n.sign == some 45) 4096 [] 45 = .ok n.sign.toList := by
      rcases hn.sign with h | h <;> rw [h] <;> rfl
    rw [e1]
    refine Reach.bind (g := fun k rng y => nextRangedInt c rng (fuel + 1) 1 k y >>= fun loc => digitsLoop c rng (fuel + 1) 4096 loc.1.toNat k.toNat 0 loc.2 n.sign.toList >>= fun r =>
      expPart c rng (fuel + 1) 4096 r.2 r.1 >>= fun r => put 4096 r.1 0 >>= fun _ => .ok r)
      (reach_count c fuel short (k := n.digits.length) (by omega) hn.count) ?_ (fun rng x => rfl)
    refine Reach.bind (g := fun loc rng y => digitsLoop c rng (fuel + 1) 4096 loc.toNat (n.digits.length : Int).toNat 0 y n.sign.toList >>= fun r =>
      expPart c rng (fuel + 1) 4096 r.2 r.1 >>= fun r => put 4096 r.1 0 >>= fun _ => .ok r)
      (reach_draw c fuel (lo := 1) (hi := (n.digits.length : Int)) (v := (n.int.length : Int)) (by norm_num) (by omega) (by omega) (by omega) (by omega)) ?_ (fun rng x => rfl)
    simp only [Int.toNat_natCast]
    refine Reach.bind (g := fun buf rng y => expPart c rng (fuel + 1) 4096 y buf >>= fun r => put 4096 r.1 0 >>= fun _ => .ok r)
      (reach_digits c fuel 4096 n.int.length n.digits 0 n.sign.toList hn.digits ?_ (by omega)) ?_ (fun rng x => rfl)
    · rintro d t _ hl ht rfl
      obtain ⟨a, l, hal⟩ := List.exists_cons_of_ne_nil hn.int
      unfold Numeral.digits at ht
      rw [hal] at ht
      simp only [List.cons_append, List.cons.injEq] at ht
      have := hn.zero l (by rw [hal, ht.1])
      rw [hal, this] at hl
      exact hl rfl
    · rw [hrest]
      refine Reach.bind (g := fun t _ y => put 4096 t 0 >>= fun _ => .ok (t, y)) (reach_expPart c fuel 4096 _ hn.exp (by omega)) (Reach.ret fun _ _ => ?_) (fun rng x => rfl)
      rw [put_ok 0 (by rw [List.length_append]; omega)]
      simp [Numeral.text, bind, Except.bind]
  obtain ⟨ws, hw, h⟩ := main
  refine ⟨_, _, _, ?_, h _ _ _ (emits_exists ws [])⟩
  intro i
  simp only [List.nil_append]
  rw [List.getD_eq_getElem?_getD]
  cases e : ws[i]? with
  | none => simp
  | some w => exact hw w (List.mem_of_getElem? e)

/-- The hypotheses are met: -0.25E+17. -/
example : ∃ (rng : Rng) (x y : Nat), (∀ i, (rng i).1 < 2 ^ 64) ∧ buildRandomString Cfg.x64 rng 1 4096 true x = .ok ("-0.25E+17".toList.map Char.toNat, y) :=
  C89_reaches_all Cfg.x64 true (n := ⟨some 45, [48], some [50, 53], some ⟨some 69, some 43, [49, 55]⟩⟩)
    ⟨Or.inr rfl, by decide, by decide, by decide, by intro ds h; cases h; rfl, by decide, Or.inr ⟨69, some 43, [49, 55], rfl, by decide, by decide, by decide, by decide, by decide⟩⟩
    (by decide)

end FastFloat
