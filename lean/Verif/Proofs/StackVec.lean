import Verif.Model.StackVec
import Mathlib.Tactic.Ring
import Mathlib.Data.List.Induction
/-
# The memory-level big integer refines the list model
-/
set_option linter.unusedSimpArgs false
set_option autoImplicit false
namespace FastFloat
namespace Mem

/-- The vector has `cap` cells, and its first `length` cells hold the limbs `l`. -/
structure Holds (cap : Nat) (v : StackVec) (l : Limbs) : Prop where
  size : v.data.length = cap
  len : v.length = l.length
  cells : ∀ i (h : i < l.length), v.data[i]? = some (some l[i])

/-- A span of initialised limbs. -/
structure SpanHolds (s : Span) (l : Limbs) : Prop where
  len : s.length = l.length
  cells : ∀ i (h : i < l.length), s.data[i]? = some (some l[i])

theorem Holds.span {cap : Nat} {v : StackVec} {l : Limbs} (h : Holds cap v l) : SpanHolds v.span l := ⟨h.len, h.cells⟩

theorem tableSpan_holds (t : List Nat) : SpanHolds (tableSpan t) t :=
  ⟨rfl, fun i h => by simp only [tableSpan, List.getElem?_map, List.getElem?_eq_getElem h]; rfl⟩

theorem Holds.le {cap : Nat} {v : StackVec} {l : Limbs} (h : Holds cap v l) : l.length ≤ cap := by
  by_contra hc
  have := h.cells cap (by omega)
  rw [List.getElem?_eq_none (by rw [h.size])] at this
  cases this

theorem readCell_of {d : Cells} {i x : Nat} (h : d[i]? = some (some x)) : readCell d i = .ok x := by
  unfold readCell; rw [h]

theorem get_ok {cap : Nat} {v : StackVec} {l : Limbs} (h : Holds cap v l) {i : Nat} (hi : i < l.length) : v.get i = .ok l[i] := by
  unfold StackVec.get
  rw [if_pos (by rw [h.len]; exact hi), readCell_of (h.cells i hi)]

theorem span_get_ok {s : Span} {l : Limbs} (h : SpanHolds s l) {i : Nat} (hi : i < l.length) : s.get i = .ok l[i] := by
  unfold Span.get
  rw [if_pos (by rw [h.len]; exact hi), readCell_of (h.cells i hi)]

theorem rindex_ok {cap : Nat} {v : StackVec} {l : Limbs} (h : Holds cap v l) {i : Nat} (hi : i < l.length) : v.rindex i = .ok l[l.length - i - 1] := by
  unfold StackVec.rindex
  rw [if_pos (by rw [h.len]; exact hi), h.len, readCell_of (h.cells _ (by omega))]

theorem rindex_list {l : Limbs} {i : Nat} (hi : i < l.length) : FastFloat.rindex l i = .ok l[l.length - i - 1] := by
  unfold FastFloat.rindex tableGet
  rw [if_pos hi, List.getElem?_eq_getElem (by omega)]

theorem set_ok {cap : Nat} {v : StackVec} {l : Limbs} (h : Holds cap v l) {i : Nat} (x : Nat) (hi : i < l.length) :
    ∃ v', v.set i x = .ok v' ∧ Holds cap v' (l.set i x) := by
  unfold StackVec.set
  rw [if_pos (by rw [h.len]; exact hi)]
  unfold writeCell
  rw [if_pos (by have := h.le; rw [h.size]; omega)]
  refine ⟨_, rfl, ?_, ?_, ?_⟩
  · simp [h.size]
  · simp [h.len]
  · intro j hj
    simp only [List.getElem?_set, List.getElem_set]
    have hd : i < v.data.length := by have := h.le; rw [h.size]; omega
    by_cases e : i = j
    · subst e; simp [hd]
    · simp only [if_neg e]
      exact h.cells j (by simpa using hj)

theorem set_mid (a b : Limbs) (x y : Nat) : (a ++ x :: b).set a.length y = a ++ y :: b := by
  rw [List.set_append_right _ _ (le_refl _), Nat.sub_self, List.set_cons_zero]

theorem get_mid (a b : Limbs) (x : Nat) (h : a.length < (a ++ x :: b).length) : (a ++ x :: b)[a.length] = x := by
  rw [List.getElem_append_right (le_refl _)]; simp

theorem push_ok {cap : Nat} (hc : cap < 2 ^ 16) {v : StackVec} {l : Limbs} (h : Holds cap v l) (x : Nat) (hl : l.length < cap) :
    ∃ v', v.pushUnchecked x = .ok v' ∧ Holds cap v' (l ++ [x]) := by
  unfold StackVec.pushUnchecked writeCell
  rw [h.len, if_pos (by rw [h.size]; exact hl)]
  refine ⟨_, rfl, ?_, ?_, ?_⟩
  · simp [h.size]
  · simp only [List.length_append, List.length_singleton]
    exact Nat.mod_eq_of_lt (by omega)
  · intro j hj
    simp only [List.length_append, List.length_singleton] at hj
    simp only [List.getElem?_set]
    by_cases e : l.length = j
    · subst e
      rw [if_pos rfl, if_pos (by rw [h.size]; exact hl)]
      simp
    · rw [if_neg e, h.cells j (by omega), List.getElem_append_left]

/-- What it means that a memory-level operation does the same as one on lists: no fault; `true` and the same limbs, or `false` where the list model
fails for lack of room; in both cases the vector is in order afterwards. -/
def Refines (cap : Nat) (m : M (Bool × StackVec)) (op : Exec Limbs) : Prop :=
  ∃ v', (m = .ok (true, v') ∧ ∃ r, op = .ok r ∧ Holds cap v' r) ∨ (m = .ok (false, v') ∧ op = .error .capacity ∧ ∃ r, Holds cap v' r)

theorem tryPush_refines (c : Cfg) {cap : Nat} (hcap : cap = bigintLimbs c) (hc : cap < 2 ^ 16) {v : StackVec} {l : Limbs} (h : Holds cap v l) (x : Nat) :
    Refines cap (v.tryPush x) (FastFloat.tryPush c l x) := by
  unfold StackVec.tryPush FastFloat.tryPush
  rw [h.len, h.size, ← hcap]
  by_cases hl : l.length < cap
  · rw [if_pos hl, if_pos hl]
    obtain ⟨v', e, h'⟩ := push_ok hc h x hl
    refine ⟨v', Or.inl ⟨?_, _, rfl, h'⟩⟩
    rw [e]; rfl
  · rw [if_neg hl, if_neg hl]
    exact ⟨v, Or.inr ⟨rfl, rfl, l, h⟩⟩

theorem copyN_ok {src : Cells} {s : Limbs} : ∀ (n k : Nat) (a b : List (Option Nat)) (pre : Nat), n + k = s.length → (∀ i (h : i < s.length), src[i]? = some (some s[i])) →
    a.length = pre + k → n ≤ b.length →
    copyN src pre n k (a ++ b) = .ok (a ++ (s.drop k).map some ++ b.drop n) := by
  intro n
  induction n with
  | zero =>
    intro k a b pre hk hs ha hb
    rw [List.drop_eq_nil_of_le (by omega)]
    simp [copyN]
  | succ n ih =>
    intro k a b pre hk hs ha hb
    unfold copyN
    rw [readCell_of (hs k (by omega))]
    cases b with
    | nil => simp at hb
    | cons y b =>
      have e : writeCell (a ++ y :: b) (pre + k) s[k] = .ok ((a ++ [some s[k]]) ++ b) := by
        unfold writeCell
        rw [if_pos (by simp; omega), ← ha, List.set_append_right _ _ (le_refl _), Nat.sub_self, List.set_cons_zero]
        simp
      simp only [bind, Except.bind, e]
      rw [ih (k + 1) _ b pre (by omega) hs (by simp; omega) (by simpa using hb)]
      have e2 : s.drop k = s[k] :: s.drop (k + 1) := List.drop_eq_getElem_cons (by omega)
      rw [e2]
      simp only [List.map_cons, List.append_assoc, List.cons_append, List.nil_append, List.drop_succ_cons]

theorem holds_split {cap : Nat} {v : StackVec} {l : Limbs} (h : Holds cap v l) : ∃ t, v.data = l.map some ++ t ∧ l.length + t.length = cap := by
  refine ⟨v.data.drop l.length, ?_, by rw [List.length_drop, h.size]; have := h.le; omega⟩
  apply List.ext_getElem?
  intro i
  by_cases hi : i < l.length
  · rw [h.cells i hi, List.getElem?_append_left (by simpa using hi), List.getElem?_map, List.getElem?_eq_getElem hi]; rfl
  · rw [List.getElem?_append_right (by simpa using hi), List.getElem?_drop, List.length_map]
    congr 1; omega

theorem holds_of {cap n : Nat} {l : Limbs} {t d : List (Option Nat)} (hd : d = l.map some ++ t) (hn : n = l.length) (hs : l.length + t.length = cap) :
    Holds cap ⟨d, n⟩ l := by
  subst hd
  refine ⟨by simp [hs], hn, ?_⟩
  intro i hi
  rw [List.getElem?_append_left (by simpa using hi), List.getElem?_map, List.getElem?_eq_getElem hi]; rfl

theorem extend_ok {cap : Nat} (hc : cap < 2 ^ 16) {v : StackVec} {l s : Limbs} {sp : Span} (h : Holds cap v l) (hs : SpanHolds sp s) (hl : l.length + s.length ≤ cap) :
    ∃ v', v.tryExtend sp = .ok (true, v') ∧ Holds cap v' (l ++ s) := by
  obtain ⟨t, ht, hlen⟩ := holds_split h
  unfold StackVec.tryExtend StackVec.extendUnchecked
  rw [h.len, h.size, hs.len, if_pos hl]
  have e := copyN_ok (src := sp.data) (s := s) s.length 0 (l.map some) t l.length (by omega) hs.cells (by simp) (by omega)
  rw [ht, e]
  refine ⟨_, rfl, ?_⟩
  unfold StackVec.setLen
  refine holds_of (t := t.drop s.length) (by simp) ?_ (by simp; omega)
  simp only [List.length_append]
  exact Nat.mod_eq_of_lt (by omega)

theorem fill_ok (x : Nat) : ∀ (n : Nat) (a b : List (Option Nat)), n ≤ b.length → fill x n a.length (a ++ b) = .ok (a ++ List.replicate n (some x) ++ b.drop n) := by
  intro n
  induction n with
  | zero => intro a b _; simp [fill]
  | succ n ih =>
    intro a b hb
    cases b with
    | nil => simp at hb
    | cons y b =>
      unfold fill
      have e : writeCell (a ++ y :: b) a.length x = .ok ((a ++ [some x]) ++ b) := by
        unfold writeCell
        rw [if_pos (by simp), List.set_append_right _ _ (le_refl _), Nat.sub_self, List.set_cons_zero]
        simp
      simp only [bind, Except.bind, e]
      have := ih (a ++ [some x]) b (by simpa using hb)
      rw [List.length_append, List.length_singleton] at this
      rw [this]
      simp [List.replicate_succ]

theorem resize_ok {cap : Nat} (hc : cap < 2 ^ 16) {v : StackVec} {l : Limbs} (h : Holds cap v l) {n : Nat} (hl : l.length < n) (hn : n ≤ cap) :
    ∃ v', v.tryResize n 0 = .ok (true, v') ∧ Holds cap v' (l ++ List.replicate (n - l.length) 0) := by
  obtain ⟨t, ht, hlen⟩ := holds_split h
  unfold StackVec.tryResize StackVec.resizeUnchecked
  rw [h.len, h.size, if_neg (by omega), if_pos hl]
  have e := fill_ok 0 (n - l.length) (l.map some) t (by omega)
  rw [List.length_map] at e
  rw [ht, e]
  refine ⟨_, rfl, ?_⟩
  unfold StackVec.setLen
  refine holds_of (t := t.drop (n - l.length)) (by simp) ?_ (by simp; omega)
  simp only [List.length_append, List.length_replicate]
  rw [Nat.mod_eq_of_lt (by omega)]; omega

/-! ### Loops -/

theorem smallAddLoop_ok (c : Cfg) {cap : Nat} : ∀ (b a : Limbs) (fuel : Nat) (v : StackVec) (carry : Nat), Holds cap v (a ++ b) → b.length < fuel →
    ∃ v', smallAddLoop c fuel v carry a.length = .ok (v', (addCarryLoop c b carry).2) ∧ Holds cap v' (a ++ (addCarryLoop c b carry).1) := by
  intro b
  induction b with
  | nil =>
    intro a fuel v carry h hf
    cases fuel with
    | zero => omega
    | succ fuel =>
      unfold smallAddLoop
      rw [if_neg (by rw [h.len]; simp)]
      exact ⟨v, rfl, h⟩
  | cons x b ih =>
    intro a fuel v carry h hf
    cases fuel with
    | zero => omega
    | succ fuel =>
      unfold smallAddLoop addCarryLoop
      by_cases hz : carry = 0
      · rw [if_neg (by simp [hz]), if_pos hz, hz]
        exact ⟨v, rfl, h⟩
      · rw [if_pos ⟨hz, by rw [h.len]; simp⟩, if_neg hz, get_ok h (by simp), get_mid]
        obtain ⟨v1, e1, h1⟩ := set_ok h (scalarAdd c x carry).1 (i := a.length) (by simp)
        rw [set_mid] at h1
        simp only [bind, Except.bind, e1]
        obtain ⟨v2, e2, h2⟩ := ih (a ++ [(scalarAdd c x carry).1]) fuel v1 (if (scalarAdd c x carry).2 then 1 else 0) (by simpa using h1) (by simp at hf; omega)
        rw [List.length_append, List.length_singleton] at e2
        rw [e2]
        exact ⟨v2, rfl, by simpa using h2⟩

theorem smallAddFrom_refines (c : Cfg) {cap : Nat} (hcap : cap = bigintLimbs c) (hc : cap < 2 ^ 16) {v : StackVec} {l : Limbs} (h : Holds cap v l) (y start : Nat)
    (hs : start ≤ l.length) : Refines cap (smallAddFrom c v y start) (FastFloat.smallAddFrom c l y start) := by
  obtain ⟨v1, e1, h1⟩ := smallAddLoop_ok c (l.drop start) (l.take start) (v.length + 1) v y (by rwa [List.take_append_drop]) (by rw [h.len]; simp; omega)
  rw [List.length_take, Nat.min_eq_left hs] at e1
  unfold smallAddFrom FastFloat.smallAddFrom
  rw [e1]
  simp only [bind, Except.bind]
  split
  · exact tryPush_refines c hcap hc h1 _
  · exact ⟨v1, Or.inl ⟨rfl, _, rfl, h1⟩⟩

theorem smallMulLoop_ok (c : Cfg) (y : Nat) {cap : Nat} : ∀ (b a : Limbs) (fuel : Nat) (v : StackVec) (carry : Nat), Holds cap v (a ++ b) → b.length < fuel →
    ∃ v', smallMulLoop c y fuel v carry a.length = .ok (v', (mulLoop c y b carry).2) ∧ Holds cap v' (a ++ (mulLoop c y b carry).1) := by
  intro b
  induction b with
  | nil =>
    intro a fuel v carry h hf
    cases fuel with
    | zero => omega
    | succ fuel =>
      unfold smallMulLoop
      rw [if_neg (by rw [h.len]; simp)]
      exact ⟨v, rfl, h⟩
  | cons x b ih =>
    intro a fuel v carry h hf
    cases fuel with
    | zero => omega
    | succ fuel =>
      unfold smallMulLoop mulLoop
      rw [if_pos (by rw [h.len]; simp), get_ok h (by simp), get_mid]
      obtain ⟨v1, e1, h1⟩ := set_ok h (scalarMul c x y carry).1 (i := a.length) (by simp)
      rw [set_mid] at h1
      simp only [bind, Except.bind, e1]
      obtain ⟨v2, e2, h2⟩ := ih (a ++ [(scalarMul c x y carry).1]) fuel v1 (scalarMul c x y carry).2 (by simpa using h1) (by simp at hf; omega)
      rw [List.length_append, List.length_singleton] at e2
      rw [e2]
      exact ⟨v2, rfl, by simpa using h2⟩

theorem smallMul_refines (c : Cfg) {cap : Nat} (hcap : cap = bigintLimbs c) (hc : cap < 2 ^ 16) {v : StackVec} {l : Limbs} (h : Holds cap v l) (y : Nat) :
    Refines cap (smallMul c v y) (FastFloat.smallMul c l y) := by
  obtain ⟨v1, e1, h1⟩ := smallMulLoop_ok c y l [] (v.length + 1) v 0 (by simpa using h) (by rw [h.len]; omega)
  rw [List.length_nil] at e1
  rw [List.nil_append] at h1
  unfold smallMul FastFloat.smallMul
  rw [e1]
  simp only [bind, Except.bind]
  split
  · exact tryPush_refines c hcap hc h1 _
  · exact ⟨v1, Or.inl ⟨rfl, _, rfl, h1⟩⟩

theorem largeAddLoop_ok (c : Cfg) {cap : Nat} {y : Span} {ly : Limbs} (hy : SpanHolds y ly) (start : Nat) : ∀ (b a yb ya : Limbs) (fuel : Nat) (x : StackVec) (carry : Bool),
    Holds cap x (a ++ b) → ly = ya ++ yb → a.length = ya.length + start → yb.length ≤ b.length → yb.length < fuel →
    ∃ x' r, FastFloat.largeAddLoop c b yb carry = .ok r ∧ largeAddLoop c y start fuel x carry ya.length = .ok (x', r.2) ∧ Holds cap x' (a ++ r.1) := by
  intro b
  induction b with
  | nil =>
    intro a yb ya fuel x carry h hly ha hyb hf
    have : yb = [] := List.length_eq_zero_iff.1 (by simpa using hyb)
    subst this
    cases fuel with
    | zero => omega
    | succ fuel =>
      unfold largeAddLoop
      rw [if_neg (by rw [hy.len, hly]; simp)]
      exact ⟨x, ([], carry), by simp [FastFloat.largeAddLoop], rfl, h⟩
  | cons xi b ih =>
    intro a yb ya fuel x carry h hly ha hyb hf
    cases fuel with
    | zero => omega
    | succ fuel =>
      cases yb with
      | nil =>
        unfold largeAddLoop
        rw [if_neg (by rw [hy.len, hly]; simp)]
        exact ⟨x, (xi :: b, carry), by simp [FastFloat.largeAddLoop], rfl, h⟩
      | cons yi yb =>
        have eg : x.get (ya.length + start) = .ok xi := by
          rw [← ha, get_ok h (by simp), get_mid]
        have eg2 : y.get ya.length = .ok yi := by
          subst hly
          rw [span_get_ok hy (by simp), get_mid]
        unfold largeAddLoop FastFloat.largeAddLoop
        rw [if_pos (by rw [hy.len, hly]; simp), eg]
        obtain ⟨s1, hs1⟩ : ∃ s, scalarAdd c xi yi = s := ⟨_, rfl⟩
        obtain ⟨s2, hs2⟩ : ∃ s : Nat × Bool, (if carry then scalarAdd c s1.1 1 else (s1.1, false)) = s := ⟨_, rfl⟩
        obtain ⟨v1, e1, h1⟩ := set_ok h s2.1 (i := a.length) (by simp)
        rw [set_mid] at h1
        rw [ha] at e1
        simp only [bind, Except.bind, eg2, hs1, hs2, e1]
        obtain ⟨v2, r, f1, f2, f3⟩ := ih (a ++ [s2.1]) yb (ya ++ [yi]) fuel v1 (s1.2 || s2.2) (by simpa using h1) (by simp [hly]) (by simp; omega)
          (by simpa using hyb) (by simp at hf; omega)
        rw [List.length_append, List.length_singleton] at f2
        rw [f1, f2]
        exact ⟨v2, (s2.1 :: r.1, r.2), rfl, rfl, by simpa using f3⟩

theorem largeAddLoop_length (c : Cfg) : ∀ (b y : Limbs) (carry : Bool) (r : Limbs × Bool), FastFloat.largeAddLoop c b y carry = .ok r → r.1.length = b.length := by
  intro b
  induction b with
  | nil =>
    intro y carry r h
    cases y with
    | nil => simp only [FastFloat.largeAddLoop, Except.ok.injEq] at h; subst h; rfl
    | cons y ys => simp [FastFloat.largeAddLoop] at h
  | cons x b ih =>
    intro y carry r h
    cases y with
    | nil => simp only [FastFloat.largeAddLoop, Except.ok.injEq] at h; subst h; rfl
    | cons y ys =>
      unfold FastFloat.largeAddLoop at h
      simp only [bind, Except.bind] at h
      split at h
      · cases h
      · rename_i q hq
        simp only [pure, Except.pure, Except.ok.injEq] at h
        rw [← h]
        simp only [List.length_cons]
        rw [ih _ _ _ hq]

theorem largeAddFrom_refines (c : Cfg) {cap : Nat} (hcap : cap = bigintLimbs c) (hc : cap < 2 ^ 16) {x : StackVec} {y : Span} {lx ly : Limbs} (hx : Holds cap x lx)
    (hy : SpanHolds y ly) (start : Nat) : Refines cap (largeAddFrom c x y start) (FastFloat.largeAddFrom c lx ly start) := by
  have main : ∀ (x1 : StackVec) (l1 : Limbs), Holds cap x1 l1 → ly.length + start ≤ l1.length →
      Refines cap (do
        let s ← largeAddLoop c y start (y.length + 1) x1 false 0
        if s.2 then smallAddFrom c s.1 1 (y.length + start) else pure (true, s.1))
      (do
        let r ← FastFloat.largeAddLoop c (l1.drop start) ly false
        let x' := l1.take start ++ r.1
        if r.2 then FastFloat.smallAddFrom c x' 1 (ly.length + start) else pure x') := by
    intro x1 l1 h1 hl
    obtain ⟨v2, r, f1, f2, f3⟩ := largeAddLoop_ok c hy start (l1.drop start) (l1.take start) ly [] (y.length + 1) x1 false (by rwa [List.take_append_drop])
      rfl (by simp; omega) (by simp; omega) (by rw [hy.len]; omega)
    rw [List.length_nil] at f2
    rw [f1, f2]
    simp only [bind, Except.bind]
    split
    · rw [hy.len]
      apply smallAddFrom_refines c hcap hc f3
      have := largeAddLoop_length c _ _ _ _ f1
      simp only [List.length_append, List.length_take, List.length_drop] at this ⊢
      omega
    · exact ⟨v2, Or.inl ⟨rfl, _, rfl, f3⟩⟩
  unfold largeAddFrom FastFloat.largeAddFrom
  rw [hx.len, hy.len]
  by_cases hcond : lx.length < start ∨ ly.length > lx.length - start
  · rw [if_pos hcond, if_pos hcond]
    by_cases hbig : ly.length + start > bigintLimbs c
    · have e : x.tryResize (ly.length + start) 0 = .ok (false, x) := by
        unfold StackVec.tryResize
        rw [if_pos (by rw [hx.size, hcap]; exact hbig)]; rfl
      rw [e, if_pos hbig]
      simp only [bind, Except.bind]
      exact ⟨x, Or.inr ⟨rfl, rfl, lx, hx⟩⟩
    · by_cases hn : lx.length < ly.length + start
      · obtain ⟨v1, e1, h1⟩ := resize_ok hc hx hn (by omega)
        rw [e1, if_neg hbig]
        have := main v1 _ h1 (by simp; omega)
        rw [hy.len] at this
        exact this
      · exfalso; omega
  · rw [if_neg hcond, if_neg hcond]
    have := main x lx hx (by omega)
    rw [hy.len] at this
    exact this

theorem dropZeros_append_zero (l : Limbs) : dropZeros (0 :: l) = dropZeros l := by simp [dropZeros]

theorem normalizeLoop_ok {cap : Nat} : ∀ (fuel : Nat) (v : StackVec) (l : Limbs), Holds cap v l → l.length < fuel →
    ∃ v', normalizeLoop fuel v = .ok v' ∧ Holds cap v' (FastFloat.normalize l) := by
  intro fuel
  induction fuel with
  | zero => intro v l _ h; omega
  | succ fuel ih =>
    intro v l h hf
    unfold normalizeLoop
    by_cases hl : l.length = 0
    · rw [if_neg (by rw [h.len]; omega)]
      have : l = [] := List.length_eq_zero_iff.1 hl
      subst this
      exact ⟨v, rfl, h⟩
    · obtain ⟨low, x, rfl⟩ : ∃ low x, l = low ++ [x] := by
        refine ⟨l.dropLast, l.getLast (by intro e; simp [e] at hl), ?_⟩
        exact (List.dropLast_concat_getLast _).symm
      rw [if_pos (by rw [h.len]; omega), rindex_ok h (by simp)]
      have ex : (low ++ [x])[(low ++ [x]).length - 0 - 1]'(by simp) = x := by simp
      rw [ex]
      simp only [bind, Except.bind]
      by_cases hx : x = 0
      · rw [if_pos hx]
        obtain ⟨v', e, h'⟩ := ih { v with length := v.length - 1 } low ⟨h.size, by simp [h.len], fun i hi => by
          have := h.cells i (by simp; omega)
          rw [List.getElem_append_left hi] at this
          exact this⟩ (by simp at hf; omega)
        refine ⟨v', e, ?_⟩
        have : FastFloat.normalize (low ++ [x]) = FastFloat.normalize low := by
          unfold FastFloat.normalize
          rw [List.reverse_append, List.reverse_singleton, List.singleton_append, hx, dropZeros_append_zero]
        rw [this]; exact h'
      · rw [if_neg hx]
        have : FastFloat.normalize (low ++ [x]) = low ++ [x] := by
          unfold FastFloat.normalize
          rw [List.reverse_append, List.reverse_singleton, List.singleton_append]
          unfold dropZeros
          rw [if_neg hx]; simp
        rw [this]
        exact ⟨v, rfl, h⟩

theorem normalize_ok {cap : Nat} {v : StackVec} {l : Limbs} (h : Holds cap v l) : ∃ v', v.normalize = .ok v' ∧ Holds cap v' (FastFloat.normalize l) :=
  normalizeLoop_ok _ v l h (by rw [h.len]; omega)

theorem fresh_holds (cap : Nat) : Holds cap (StackVec.fresh cap) [] := ⟨by simp [StackVec.fresh], rfl, fun i h => absurd h (Nat.not_lt_zero _)⟩

theorem longMulLoop_refines (c : Cfg) {cap : Nat} (hcap : cap = bigintLimbs c) (hc : cap < 2 ^ 16) {zs y : Span} {lz ly : Limbs} (hz : SpanHolds zs lz) (hzl : lz.length ≤ cap)
    (hy : SpanHolds y ly) : ∀ (yb ya : Limbs) (fuel : Nat) (x : StackVec) (lx : Limbs), Holds cap x lx → ly = ya ++ yb → yb.length < fuel →
    Refines cap (longMulLoop c cap zs y fuel x ya.length) (FastFloat.longMulLoop c lz yb ya.length lx) := by
  intro yb
  induction yb with
  | nil =>
    intro ya fuel x lx hx hly hf
    cases fuel with
    | zero => omega
    | succ fuel =>
      unfold longMulLoop FastFloat.longMulLoop
      rw [if_neg (by rw [hy.len, hly]; simp)]
      exact ⟨x, Or.inl ⟨rfl, lx, rfl, hx⟩⟩
  | cons yi yb ih =>
    intro ya fuel x lx hx hly hf
    cases fuel with
    | zero => omega
    | succ fuel =>
      have eg : y.get ya.length = .ok yi := by
        subst hly
        rw [span_get_ok hy (by simp), get_mid]
      unfold longMulLoop FastFloat.longMulLoop
      rw [if_pos (by rw [hy.len, hly]; simp), eg]
      simp only [bind, Except.bind]
      have next : ∀ (x1 : StackVec) (l1 : Limbs), Holds cap x1 l1 →
          Refines cap (longMulLoop c cap zs y fuel x1 (ya.length + 1)) (FastFloat.longMulLoop c lz yb (ya.length + 1) l1) := by
        intro x1 l1 h1
        have := ih (ya ++ [yi]) fuel x1 l1 h1 (by simp [hly]) (by simp at hf; omega)
        rwa [List.length_append, List.length_singleton] at this
      by_cases h0 : yi = 0
      · rw [if_neg (by simp [h0]), if_neg (by simp [h0])]
        exact next x lx hx
      · rw [if_pos h0, if_pos h0]
        have hfresh : Holds cap ((StackVec.fresh cap).setLen 0) [] := fresh_holds cap
        obtain ⟨v1, e1, h1⟩ := extend_ok hc hfresh hz (by simpa using hzl)
        rw [e1]
        simp only [Bool.true_eq_false, if_false]
        rcases smallMul_refines c hcap hc h1 yi with ⟨v2, ⟨e2, r2, f2, h2⟩ | ⟨e2, f2, _⟩⟩
        · rw [e2]
          rw [List.nil_append] at f2
          simp only [f2, Bool.true_eq_false, if_false]
          rcases largeAddFrom_refines c hcap hc hx h2.span ya.length with ⟨v3, ⟨e3, r3, f3, h3⟩ | ⟨e3, f3, h3⟩⟩
          · rw [e3]
            simp only [f3, Bool.true_eq_false, if_false]
            exact next v3 r3 h3
          · rw [e3]
            simp only [f3, if_true]
            exact ⟨v3, Or.inr ⟨rfl, rfl, h3⟩⟩
        · rw [e2]
          rw [List.nil_append] at f2
          simp only [f2, if_true]
          exact ⟨x, Or.inr ⟨rfl, rfl, lx, hx⟩⟩

theorem longMul_refines (c : Cfg) {cap : Nat} (hcap : cap = bigintLimbs c) (hc : cap < 2 ^ 16) {x : StackVec} {y : Span} {lx ly : Limbs} (hx : Holds cap x lx)
    (hy : SpanHolds y ly) : Refines cap (longMul c x y) (FastFloat.longMul c lx ly) := by
  unfold longMul
  rw [hx.size]
  obtain ⟨z, ez, hz⟩ := extend_ok hc (fresh_holds cap) hx.span (by simpa using hx.le)
  rw [List.nil_append] at hz
  rw [ez]
  simp only [bind, Except.bind]
  cases ly with
  | nil =>
    rw [if_neg (by rw [hy.len]; simp)]
    obtain ⟨n, en, hn⟩ := normalize_ok hx
    simp only [pure, Except.pure, Bool.true_eq_false, if_false, en]
    exact ⟨n, Or.inl ⟨rfl, _, rfl, hn⟩⟩
  | cons y0 ys =>
    have eg : y.get 0 = .ok y0 := span_get_ok hy (i := 0) (by simp)
    rw [if_pos (by rw [hy.len]; simp), eg]
    unfold FastFloat.longMul
    simp only [bind, Except.bind]
    rcases smallMul_refines c hcap hc hx y0 with ⟨v2, ⟨e2, r2, f2, h2⟩ | ⟨e2, f2, h2⟩⟩
    · rw [e2]
      simp only [f2, Bool.true_eq_false, if_false]
      rcases longMulLoop_refines c hcap hc hz.span hx.le hy ys [y0] (y.length + 1) v2 r2 h2 rfl (by rw [hy.len, List.length_cons]; omega) with ⟨v3, ⟨e3, r3, f3, h3⟩ | ⟨e3, f3, h3⟩⟩
      · rw [List.length_singleton] at e3 f3
        rw [e3]
        obtain ⟨n, en, hn⟩ := normalize_ok h3
        simp only [f3, Bool.true_eq_false, if_false, en]
        exact ⟨n, Or.inl ⟨rfl, _, rfl, hn⟩⟩
      · rw [List.length_singleton] at e3 f3
        rw [e3]
        simp only [f3, if_true]
        exact ⟨v3, Or.inr ⟨rfl, rfl, h3⟩⟩
    · rw [e2]
      simp only [f2, if_true]
      exact ⟨v2, Or.inr ⟨rfl, rfl, h2⟩⟩

theorem largeMul_refines (c : Cfg) {cap : Nat} (hcap : cap = bigintLimbs c) (hc : cap < 2 ^ 16) {x : StackVec} {y : Span} {lx ly : Limbs} (hx : Holds cap x lx)
    (hy : SpanHolds y ly) : Refines cap (largeMul c x y) (FastFloat.largeMul c lx ly) := by
  unfold largeMul FastFloat.largeMul
  rw [hy.len]
  match ly, hy with
  | [], hy => exact longMul_refines c hcap hc hx hy
  | [y0], hy =>
    have eg : y.get 0 = .ok y0 := span_get_ok hy (i := 0) (by simp)
    rw [if_pos (show [y0].length = 1 from rfl), eg]
    exact smallMul_refines c hcap hc hx y0
  | y0 :: y1 :: ys, hy =>
    rw [if_neg (by simp)]
    exact longMul_refines c hcap hc hx hy

theorem shlBitsLoop_ok (lb n : Nat) {cap : Nat} : ∀ (b a : Limbs) (fuel : Nat) (v : StackVec) (prev : Nat), Holds cap v (a ++ b) → b.length < fuel →
    ∃ v', shlBitsLoop lb n fuel v prev a.length = .ok (v', (FastFloat.shlBitsLoop lb n b prev).2) ∧ Holds cap v' (a ++ (FastFloat.shlBitsLoop lb n b prev).1) := by
  intro b
  induction b with
  | nil =>
    intro a fuel v carry h hf
    cases fuel with
    | zero => omega
    | succ fuel =>
      unfold shlBitsLoop
      rw [if_neg (by rw [h.len]; simp)]
      exact ⟨v, rfl, h⟩
  | cons x b ih =>
    intro a fuel v prev h hf
    cases fuel with
    | zero => omega
    | succ fuel =>
      unfold shlBitsLoop FastFloat.shlBitsLoop
      rw [if_pos (by rw [h.len]; simp), get_ok h (by simp), get_mid]
      obtain ⟨w, hw⟩ : ∃ w, (x * 2 ^ n % 2 ^ lb) ||| (prev / 2 ^ (lb - n)) = w := ⟨_, rfl⟩
      obtain ⟨v1, e1, h1⟩ := set_ok h w (i := a.length) (by simp)
      rw [set_mid] at h1
      simp only [bind, Except.bind, hw, e1]
      obtain ⟨v2, e2, h2⟩ := ih (a ++ [w]) fuel v1 x (by simpa using h1) (by simp at hf; omega)
      rw [List.length_append, List.length_singleton] at e2
      rw [e2]
      exact ⟨v2, rfl, by simpa using h2⟩

theorem shlBits_refines (c : Cfg) {cap : Nat} (hcap : cap = bigintLimbs c) (hc : cap < 2 ^ 16) {v : StackVec} {l : Limbs} (h : Holds cap v l) {n : Nat} (h0 : n ≠ 0)
    (hn : n < limbBits c) : Refines cap (shlBits c v n) (FastFloat.shlBits c l n) := by
  unfold shlBits FastFloat.shlBits
  rw [if_neg (by omega), if_neg (by omega)]
  obtain ⟨v1, e1, h1⟩ := shlBitsLoop_ok (limbBits c) n l [] (v.length + 1) v 0 (by simpa using h) (by rw [h.len]; omega)
  rw [List.length_nil] at e1
  rw [List.nil_append] at h1
  rw [e1]
  simp only [bind, Except.bind]
  split
  · exact tryPush_refines c hcap hc h1 _
  · exact ⟨v1, Or.inl ⟨rfl, _, rfl, h1⟩⟩

/-- `copy_backward` onto cells further up: the cells below `n` keep what they had (overlapping ranges are handled because the last cell goes first). -/
theorem copyBackward_ok (n : Nat) (hn : 0 < n) : ∀ (l l2 : Limbs) (t : List (Option Nat)) (mid : List (Option Nat)), mid.length = n →
    copyBackward n l.length (l.map some ++ mid ++ l2.map some ++ t) = .ok ((l.map some ++ mid ++ l2.map some ++ t).take n ++ (l ++ l2).map some ++ t) := by
  intro l
  induction l using List.reverseRecOn with
  | nil =>
    intro l2 t mid hm
    simp [copyBackward, ← hm]
  | append_singleton l x ih =>
    intro l2 t mid hm
    obtain ⟨y, mid', rfl⟩ : ∃ mid' y, mid = y ++ [mid'] := by
      refine ⟨mid.getLast (by intro e; simp [e] at hm; omega), mid.dropLast, (List.dropLast_concat_getLast _).symm⟩
    rw [List.length_append, List.length_singleton]
    unfold copyBackward
    have er : readCell ((l ++ [x]).map some ++ (mid' ++ [y]) ++ l2.map some ++ t) l.length = .ok x := by
      apply readCell_of
      simp
    rw [er]
    have ew : writeCell ((l ++ [x]).map some ++ (mid' ++ [y]) ++ l2.map some ++ t) (l.length + n) x =
        .ok (l.map some ++ (some x :: mid') ++ (x :: l2).map some ++ t) := by
      unfold writeCell
      rw [if_pos (by simp at hm ⊢; omega)]
      have e1 : (l ++ [x]).map some ++ (mid' ++ [y]) ++ l2.map some ++ t = (l.map some ++ (some x :: mid')) ++ y :: (l2.map some ++ t) := by simp
      have e2 : l.length + n = (l.map some ++ (some x :: mid')).length := by simp at hm ⊢; omega
      rw [e1, e2, List.set_append_right _ _ (le_refl _), Nat.sub_self, List.set_cons_zero]
      simp
    simp only [bind, Except.bind, ew]
    rw [ih (x :: l2) t (some x :: mid') (by simp at hm ⊢; omega)]
    congr 1
    have e3 : (l.map some ++ (some x :: mid') ++ (x :: l2).map some ++ t).take n = ((l ++ [x]).map some ++ (mid' ++ [y]) ++ l2.map some ++ t).take n := by
      have e4 : l.map some ++ (some x :: mid') ++ (x :: l2).map some ++ t = (l.map some ++ (some x :: mid')) ++ (some x :: (l2.map some ++ t)) := by simp
      have e5 : (l ++ [x]).map some ++ (mid' ++ [y]) ++ l2.map some ++ t = (l.map some ++ (some x :: mid')) ++ (y :: (l2.map some ++ t)) := by simp
      have hle : n ≤ (l.map some ++ (some x :: mid')).length := by simp at hm ⊢; omega
      rw [e4, e5, List.take_append_of_le_length hle, List.take_append_of_le_length hle]
    rw [e3]
    simp

theorem shlLimbs_refines (c : Cfg) {cap : Nat} (hcap : cap = bigintLimbs c) (hc : cap < 2 ^ 16) {v : StackVec} {l : Limbs} (h : Holds cap v l) {n : Nat} (h0 : n ≠ 0) :
    Refines cap (shlLimbs v n) (FastFloat.shlLimbs c l n) := by
  unfold shlLimbs FastFloat.shlLimbs
  rw [if_neg h0, h.len, h.size, ← hcap]
  by_cases hb : n + l.length > cap
  · rw [if_pos hb, if_pos hb]
    exact ⟨v, Or.inr ⟨rfl, rfl, l, h⟩⟩
  · rw [if_neg hb, if_neg hb]
    by_cases hl : l.length ≠ 0
    · rw [if_pos hl, if_pos hl]
      obtain ⟨t, ht, hlen⟩ := holds_split h
      have e1 := copyBackward_ok n (by omega) l [] (t.drop n) (t.take n) (by simp; omega)
      simp only [List.map_nil, List.append_nil, List.append_assoc, List.take_append_drop] at e1
      rw [ht, e1]
      simp only [bind, Except.bind]
      obtain ⟨u, hu⟩ : ∃ u, List.take n (l.map some ++ t) = u := ⟨_, rfl⟩
      have hul : u.length = n := by rw [← hu]; simp; omega
      rw [hu]
      have e2 := fill_ok 0 n [] (u ++ (l.map some ++ t.drop n)) (by simp; omega)
      rw [List.length_nil, List.nil_append, List.nil_append] at e2
      rw [e2, ← hul, List.drop_left]
      refine ⟨_, Or.inl ⟨rfl, _, rfl, ?_⟩⟩
      unfold StackVec.setLen
      refine holds_of (t := t.drop n) (by simp [hul]) ?_ (by simp; omega)
      simp only [List.length_append, List.length_replicate]
      exact Nat.mod_eq_of_lt (by omega)
    · rw [if_neg hl, if_neg hl]
      exact ⟨v, Or.inl ⟨rfl, l, rfl, h⟩⟩

theorem shl_refines (c : Cfg) {cap : Nat} (hcap : cap = bigintLimbs c) (hc : cap < 2 ^ 16) {v : StackVec} {l : Limbs} (h : Holds cap v l) (n : Nat) :
    Refines cap (shl c v n) (bigShl c l n) := by
  have hlb : 0 < limbBits c := by unfold limbBits; split <;> omega
  unfold shl bigShl
  simp only [bind, Except.bind]
  have second : ∀ (v1 : StackVec) (l1 : Limbs), Holds cap v1 l1 →
      Refines cap (if n / limbBits c ≠ 0 then shlLimbs v1 (n / limbBits c) else .ok (true, v1))
        (if n / limbBits c ≠ 0 then FastFloat.shlLimbs c l1 (n / limbBits c) else .ok l1) := by
    intro v1 l1 h1
    by_cases hd : n / limbBits c ≠ 0
    · rw [if_pos hd, if_pos hd]; exact shlLimbs_refines c hcap hc h1 hd
    · rw [if_neg hd, if_neg hd]; exact ⟨v1, Or.inl ⟨rfl, l1, rfl, h1⟩⟩
  by_cases hr : n % limbBits c ≠ 0
  · rw [if_pos hr, if_pos hr]
    rcases shlBits_refines c hcap hc h hr (Nat.mod_lt _ hlb) with ⟨v1, ⟨e1, r1, f1, h1⟩ | ⟨e1, f1, h1⟩⟩
    · rw [e1]
      simp only [f1, Bool.true_eq_false, if_false]
      exact second v1 r1 h1
    · rw [e1]
      simp only [f1, if_true]
      exact ⟨v1, Or.inr ⟨rfl, rfl, h1⟩⟩
  · rw [if_neg hr, if_neg hr]
    simp only [pure, Except.pure, Bool.true_eq_false, if_false]
    exact second v l h

/-! ### Reading -/

theorem nonzeroLoop_ok {cap : Nat} {v : StackVec} {l : Limbs} (h : Holds cap v l) : ∀ (fuel index : Nat), l.length - index < fuel →
    nonzeroLoop v fuel index = .ok (nonzeroFrom l index) := by
  intro fuel
  induction fuel with
  | zero => intro index hf; omega
  | succ fuel ih =>
    intro index hf
    unfold nonzeroLoop
    by_cases hi : index < l.length
    · rw [if_pos (by rw [h.len]; exact hi), rindex_ok h hi]
      simp only [bind, Except.bind]
      have e : l.take (l.length - index) = l.take (l.length - (index + 1)) ++ [l[l.length - index - 1]] := by
        have e1 : ∀ k (hk : k < l.length), l.take (k + 1) = l.take k ++ [l[k]] := by
          intro k hk
          rw [List.take_add_one, List.getElem?_eq_getElem hk]; rfl
        have e2 : l.length - index - 1 = l.length - (index + 1) := by omega
        have e3 : l.length - index = l.length - (index + 1) + 1 := by omega
        have e4 := e1 (l.length - (index + 1)) (by omega)
        rw [← e3] at e4
        simp only [e2]
        exact e4
      have en : nonzeroFrom l index = (nonzeroFrom l (index + 1) || (l[l.length - index - 1] != 0)) := by
        unfold nonzeroFrom
        rw [e, List.any_append]; simp
      by_cases hx : l[l.length - index - 1] ≠ 0
      · rw [if_pos hx, en]
        have : (l[l.length - index - 1] != 0) = true := by simpa using hx
        rw [this, Bool.or_true]; rfl
      · rw [if_neg hx, ih (index + 1) (by omega), en]
        have : (l[l.length - index - 1] != 0) = false := by simpa using hx
        rw [this, Bool.or_false]
    · rw [if_neg (by rw [h.len]; exact hi)]
      unfold nonzeroFrom
      rw [show l.length - index = 0 by omega]
      rfl

theorem nonzero_ok {cap : Nat} {v : StackVec} {l : Limbs} (h : Holds cap v l) (index : Nat) : v.nonzero index = .ok (nonzeroFrom l index) :=
  nonzeroLoop_ok h _ _ (by rw [h.len]; omega)

theorem lift_bind {α β : Type} (x : Exec α) (f : α → Exec β) : lift (x >>= f) = (lift x >>= fun a => lift (f a)) := by cases x <;> rfl

theorem ex_bind {ε α β : Type} (a : α) (f : α → Except ε β) : (Except.ok a >>= f) = f a := rfl

/-- The end of `hi64`: one more flag. -/
theorem hi_or (x : Exec Hi) (b : Bool) :
    (lift x >>= fun h => (.ok b : M Bool) >>= fun t => (pure (h.1, h.2 || t) : M Hi)) = lift (x >>= fun h => pure (h.1, h.2 || b)) := by
  cases x <;> rfl

theorem hi64_one {cap : Nat} {v : StackVec} {l : Limbs} (h : Holds cap v l) (h1 : 0 < l.length) (g : Nat → Exec Hi) :
    (v.rindex 0 >>= fun r0 => lift (g r0)) = lift (FastFloat.rindex l 0 >>= g) := by
  rw [rindex_ok h h1, rindex_list h1, ex_bind, ex_bind]

theorem hi64_two {cap : Nat} {v : StackVec} {l : Limbs} (h : Holds cap v l) (h1 : 1 < l.length) (g : Nat → Nat → Exec Hi) :
    (v.rindex 0 >>= fun r0 => v.rindex 1 >>= fun r1 => lift (g r0 r1)) =
      lift (FastFloat.rindex l 0 >>= fun r0 => FastFloat.rindex l 1 >>= fun r1 => g r0 r1) := by
  rw [rindex_ok h (Nat.lt_of_succ_lt h1), rindex_list (Nat.lt_of_succ_lt h1), rindex_ok h h1, rindex_list h1]
  simp only [ex_bind]

theorem hi64_two_or {cap : Nat} {v : StackVec} {l : Limbs} (h : Holds cap v l) (h1 : 1 < l.length) (g : Nat → Nat → Exec Hi) :
    (v.rindex 0 >>= fun r0 => v.rindex 1 >>= fun r1 => lift (g r0 r1) >>= fun x => v.nonzero 2 >>= fun t => (pure (x.1, x.2 || t) : M Hi)) =
      lift (FastFloat.rindex l 0 >>= fun r0 => FastFloat.rindex l 1 >>= fun r1 => g r0 r1 >>= fun x => pure (x.1, x.2 || nonzeroFrom l 2)) := by
  rw [rindex_ok h (Nat.lt_of_succ_lt h1), rindex_list (Nat.lt_of_succ_lt h1), rindex_ok h h1, rindex_list h1, nonzero_ok h]
  simp only [ex_bind]
  exact hi_or _ _

theorem hi64_three_or {cap : Nat} {v : StackVec} {l : Limbs} (h : Holds cap v l) (h1 : 2 < l.length) (g : Nat → Nat → Nat → Exec Hi) :
    (v.rindex 0 >>= fun r0 => v.rindex 1 >>= fun r1 => v.rindex 2 >>= fun r2 => lift (g r0 r1 r2) >>= fun x => v.nonzero 3 >>= fun t =>
        (pure (x.1, x.2 || t) : M Hi)) =
      lift (FastFloat.rindex l 0 >>= fun r0 => FastFloat.rindex l 1 >>= fun r1 => FastFloat.rindex l 2 >>= fun r2 => g r0 r1 r2 >>= fun x =>
        pure (x.1, x.2 || nonzeroFrom l 3)) := by
  rw [rindex_ok h (show 0 < l.length by omega), rindex_list (show 0 < l.length by omega), rindex_ok h (show 1 < l.length by omega),
    rindex_list (show 1 < l.length by omega), rindex_ok h h1, rindex_list h1, nonzero_ok h]
  simp only [ex_bind]
  exact hi_or _ _

theorem lift_ite {α : Type} (p : Prop) [Decidable p] (a b : Exec α) : lift (if p then a else b) = if p then lift a else lift b := by
  split <;> rfl

theorem ite_congr' {α : Type} {p : Prop} [Decidable p] {a b a' b' : α} (h : p → a = a') (h' : ¬ p → b = b') :
    (if p then a else b) = if p then a' else b' := by
  split
  · exact h ‹_›
  · exact h' ‹_›

theorem hi64_eq (c : Cfg) {cap : Nat} {v : StackVec} {l : Limbs} (h : Holds cap v l) : hi64 c v = lift (FastFloat.hi64 c l) := by
  unfold hi64 FastFloat.hi64
  simp only [h.len, lift_ite]
  refine ite_congr' (fun _ => ite_congr' (fun _ => rfl) fun h0 => ite_congr' (fun h1 => ?_) fun h1 => ?_)
    (fun _ => ite_congr' (fun _ => rfl) fun h0 => ite_congr' (fun h1 => ?_) fun h1 => ite_congr' (fun h2 => ?_) fun h2 => ?_)
  · exact hi64_one h (Nat.pos_of_ne_zero h0) (uint64Hi64One c)
  · exact hi64_two_or h (by omega) (uint64Hi64Two c)
  · exact hi64_one h (Nat.pos_of_ne_zero h0) (uint64Hi64One c)
  · exact hi64_two h (by omega) (uint32Hi64Two c)
  · exact hi64_three_or h (by omega) (uint32Hi64Three c)

theorem ctlz_eq (c : Cfg) {cap : Nat} {v : StackVec} {l : Limbs} (h : Holds cap v l) : ctlz c v = lift (FastFloat.ctlz c l) := by
  unfold ctlz FastFloat.ctlz
  rw [h.len]
  by_cases h0 : l.length = 0
  · rw [if_pos h0, if_pos h0]; rfl
  · rw [if_neg h0, if_neg h0, rindex_ok h (by omega), rindex_list (by omega)]
    simp only [ex_bind]
    by_cases hc : c.limb64 = true
    · rw [if_pos hc, if_pos hc]
    · rw [if_neg hc, if_neg hc]

theorem bitLength_eq (c : Cfg) {cap : Nat} {v : StackVec} {l : Limbs} (h : Holds cap v l) : bitLength c v = lift (FastFloat.bitLength c l) := by
  unfold bitLength FastFloat.bitLength
  rw [ctlz_eq c h, h.len]
  cases FastFloat.ctlz c l <;> rfl

theorem compareLoop_ok {cap : Nat} {x y : StackVec} {lx ly : Limbs} (hx : Holds cap x lx) (hy : Holds cap y ly) : ∀ n, n ≤ lx.length → n ≤ ly.length →
    compareLoop x y n = .ok (FastFloat.compareLoop (lx.take n).reverse (ly.take n).reverse) := by
  intro n
  induction n with
  | zero => intro _ _; simp [compareLoop, FastFloat.compareLoop]
  | succ n ih =>
    intro h1 h2
    unfold compareLoop
    rw [get_ok hx (by omega), get_ok hy (by omega)]
    have ex : lx.take (n + 1) = lx.take n ++ [lx[n]] := by rw [List.take_add_one, List.getElem?_eq_getElem (by omega)]; rfl
    have ey : ly.take (n + 1) = ly.take n ++ [ly[n]] := by rw [List.take_add_one, List.getElem?_eq_getElem (by omega)]; rfl
    rw [ex, ey, List.reverse_append, List.reverse_append, List.reverse_singleton, List.reverse_singleton, List.singleton_append, List.singleton_append]
    unfold FastFloat.compareLoop
    simp only [bind, Except.bind]
    rw [ih (by omega) (by omega)]
    split
    · rfl
    · split <;> rfl

theorem compare_eq {cap : Nat} {x y : StackVec} {lx ly : Limbs} (hx : Holds cap x lx) (hy : Holds cap y ly) : compare x y = .ok (bigCompare lx ly) := by
  unfold compare bigCompare
  rw [hx.len, hy.len]
  by_cases h1 : lx.length > ly.length
  · rw [if_pos h1, if_pos h1]
  · rw [if_neg h1, if_neg h1]
    by_cases h2 : lx.length < ly.length
    · rw [if_pos h2, if_pos h2]
    · rw [if_neg h2, if_neg h2, compareLoop_ok hx hy _ (le_refl _) (by omega), List.take_of_length_le (le_refl _), List.take_of_length_le (by omega)]

theorem bigOfU64_ok (c : Cfg) {cap : Nat} (hcap : cap = bigintLimbs c) (hc : cap < 2 ^ 16) (h2 : 2 ≤ cap) (x : Nat) :
    ∃ v, bigOfU64 c x = .ok v ∧ Holds cap v (FastFloat.bigOfU64 c x) := by
  unfold bigOfU64 FastFloat.bigOfU64
  rw [← hcap]
  by_cases hl : c.limb64 = true
  · rw [if_pos hl, if_pos hl]
    obtain ⟨v1, e1, h1⟩ := push_ok hc (fresh_holds cap) (x % 2 ^ 64) (by simp; omega)
    simp only [bind, Except.bind, e1]
    exact normalize_ok h1
  · rw [if_neg hl, if_neg hl]
    obtain ⟨v1, e1, h1⟩ := push_ok hc (fresh_holds cap) (x % 2 ^ 32) (by simp; omega)
    obtain ⟨v2, e2, h2⟩ := push_ok hc h1 (x / 2 ^ 32 % 2 ^ 32) (by simp; omega)
    simp only [bind, Except.bind, e1, e2]
    exact normalize_ok h2

/-! ### Powers -/

/-- Like `Refines`, with the remaining exponent. -/
def RefinesE (cap : Nat) (m : M (Bool × StackVec × Nat)) (op : Exec (Limbs × Nat)) : Prop :=
  ∃ v' e, (m = .ok (true, v', e) ∧ ∃ r, op = .ok (r, e) ∧ Holds cap v' r) ∨ (m = .ok (false, v', e) ∧ op = .error .capacity ∧ ∃ r, Holds cap v' r)

theorem pow5Large_refines (c : Cfg) {cap : Nat} (hcap : cap = bigintLimbs c) (hc : cap < 2 ^ 16) : ∀ (fuel exp : Nat) (v : StackVec) (l : Limbs), Holds cap v l →
    exp < fuel → RefinesE cap (pow5Large c fuel v exp) (FastFloat.pow5Large c fuel l exp) := by
  intro fuel
  induction fuel with
  | zero => intro exp v l _ h; omega
  | succ fuel ih =>
    intro exp v l h hf
    unfold pow5Large FastFloat.pow5Large
    by_cases he : exp ≥ largeStep
    · rw [if_pos he, if_pos he]
      rcases largeMul_refines c hcap hc h (tableSpan_holds (largePowerOf5 c)) with ⟨v1, ⟨e1, r1, f1, h1⟩ | ⟨e1, f1, h1⟩⟩
      · simp only [bind, Except.bind, e1, f1, Bool.true_eq_false, if_false]
        exact ih (exp - largeStep) v1 r1 h1 (by unfold largeStep at he ⊢; omega)
      · simp only [bind, Except.bind, e1, f1, if_true]
        exact ⟨v1, exp, Or.inr ⟨rfl, rfl, h1⟩⟩
    · rw [if_neg he, if_neg he]
      exact ⟨v, exp, Or.inl ⟨rfl, l, rfl, h⟩⟩

theorem pow5Small_refines (c : Cfg) {cap : Nat} (hcap : cap = bigintLimbs c) (hc : cap < 2 ^ 16) : ∀ (fuel exp : Nat) (v : StackVec) (l : Limbs), Holds cap v l →
    exp < fuel → RefinesE cap (pow5Small c fuel v exp) (FastFloat.pow5Small c fuel l exp) := by
  intro fuel
  induction fuel with
  | zero => intro exp v l _ h; omega
  | succ fuel ih =>
    intro exp v l h hf
    unfold pow5Small FastFloat.pow5Small
    by_cases he : exp ≥ smallStep c
    · rw [if_pos he, if_pos he]
      rcases smallMul_refines c hcap hc h (maxNative c) with ⟨v1, ⟨e1, r1, f1, h1⟩ | ⟨e1, f1, h1⟩⟩
      · simp only [bind, Except.bind, e1, f1, Bool.true_eq_false, if_false]
        have hs : 0 < smallStep c := by unfold smallStep; split <;> omega
        exact ih (exp - smallStep c) v1 r1 h1 (by omega)
      · simp only [bind, Except.bind, e1, f1, if_true]
        exact ⟨v1, exp, Or.inr ⟨rfl, rfl, h1⟩⟩
    · rw [if_neg he, if_neg he]
      exact ⟨v, exp, Or.inl ⟨rfl, l, rfl, h⟩⟩

theorem pow5Small_lt (c : Cfg) : ∀ (fuel exp : Nat) (l : Limbs) (r : Limbs × Nat), FastFloat.pow5Small c fuel l exp = .ok r → r.2 < smallStep c := by
  intro fuel
  induction fuel with
  | zero => intro exp l r h; simp [FastFloat.pow5Small] at h
  | succ fuel ih =>
    intro exp l r h
    unfold FastFloat.pow5Small at h
    by_cases he : exp ≥ smallStep c
    · rw [if_pos he] at h
      simp only [bind, Except.bind] at h
      split at h
      · cases h
      · exact ih _ _ _ h
    · rw [if_neg he] at h
      simp only [Except.ok.injEq] at h
      rw [← h]; omega

theorem pow5_refines (c : Cfg) {cap : Nat} (hcap : cap = bigintLimbs c) (hc : cap < 2 ^ 16) {v : StackVec} {l : Limbs} (h : Holds cap v l) (exp : Nat) :
    Refines cap (pow5 c v exp) (bigPow5 c l exp) := by
  unfold pow5 bigPow5
  obtain ⟨v1, x1, ⟨e1, r1, f1, h1⟩ | ⟨e1, f1, h1⟩⟩ := pow5Large_refines c hcap hc (exp + 1) exp v l h (by omega)
  · simp only [bind, Except.bind, e1, f1, Bool.true_eq_false, if_false]
    obtain ⟨v2, x2, ⟨e2, r2, f2, h2⟩ | ⟨e2, f2, h2⟩⟩ := pow5Small_refines c hcap hc (x1 + 1) x1 v1 r1 h1 (by omega)
    · simp only [e2, f2, Bool.true_eq_false, if_false]
      have hlt := pow5Small_lt c _ _ _ _ f2
      by_cases h0 : x2 ≠ 0
      · rw [if_pos h0, if_pos h0]
        have hx : x2 < smallPowerOf5.length := by
          have : smallStep c ≤ 27 := by unfold smallStep; split <;> omega
          have e28 : smallPowerOf5.length = 28 := rfl
          simp only at hlt
          omega
        have et : tableGet smallPowerOf5 x2 = .ok smallPowerOf5[x2] := by unfold tableGet; rw [List.getElem?_eq_getElem hx]
        rw [et]
        exact smallMul_refines c hcap hc h2 _
      · rw [if_neg h0, if_neg h0]
        exact ⟨v2, Or.inl ⟨rfl, r2, rfl, h2⟩⟩
    · simp only [e2, f2, if_true]
      exact ⟨v2, Or.inr ⟨rfl, rfl, h2⟩⟩
  · simp only [bind, Except.bind, e1, f1, if_true]
    exact ⟨v1, Or.inr ⟨rfl, rfl, h1⟩⟩

theorem pow10_refines (c : Cfg) {cap : Nat} (hcap : cap = bigintLimbs c) (hc : cap < 2 ^ 16) {v : StackVec} {l : Limbs} (h : Holds cap v l) (exp : Nat) :
    Refines cap (pow10 c v exp) (bigPow10 c l exp) := by
  unfold pow10 bigPow10
  rcases pow5_refines c hcap hc h exp with ⟨v1, ⟨e1, r1, f1, h1⟩ | ⟨e1, f1, h1⟩⟩
  · simp only [bind, Except.bind, e1, f1, Bool.true_eq_false, if_false]
    exact shl_refines c hcap hc h1 exp
  · simp only [bind, Except.bind, e1, f1, if_true]
    exact ⟨v1, Or.inr ⟨rfl, rfl, h1⟩⟩

end Mem
end FastFloat
