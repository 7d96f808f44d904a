import Verif.Proofs.MemDigitComp
import Verif.Props.BigIntExact
import Verif.Props.Build
/-
# C70: the buffer of the big integer

`stackvec` is an array on the stack whose cells are not initialised, with a length that is kept in 16 bits.  `Verif.Model.StackVec` and
`Verif.Model.MemDigitComp` model it as such: an access outside the array, a read of a cell that was never written and an index at or past the length are
faults.  The theorems say that no operation faults, that what it leaves behind can be used again even if it reported failure, and that what it computes is
the exact result, or failure exactly if the result does not fit.
-/
set_option linter.unusedSimpArgs false
set_option autoImplicit false
namespace FastFloat
open Mem

/-- The vector can be used: its array has the size it was declared with, its length is within the array, and all cells below the length are written. -/
structure Usable (c : Cfg) (v : StackVec) : Prop where
  size : v.data.length = bigintLimbs c
  room : v.length ≤ bigintLimbs c
  written : ∀ i < v.length, ∃ x, v.data[i]? = some (some x)

/-- The cells below the length are the canonical representation of `V`. -/
structure Stores (c : Cfg) (v : StackVec) (V : Nat) : Prop where
  size : v.data.length = bigintLimbs c
  value : ∃ limbs, v.data.take v.length = limbs.map some ∧ limbs.length = v.length ∧ IsBig c limbs V

/-- A run in memory computes `V` exactly if `V` fits; if not it returns `false` and leaves a usable vector.  Either way there is no fault. -/
structure Runs (c : Cfg) (m : M (Bool × StackVec)) (V : Nat) : Prop where
  exact : V < bigLimit c → ∃ v', m = .ok (true, v') ∧ Stores c v' V
  fails : bigLimit c ≤ V → ∃ v', m = .ok (false, v') ∧ Usable c v'

theorem usable_of_holds {c : Cfg} {v : StackVec} {l : Limbs} (h : Holds (bigintLimbs c) v l) : Usable c v :=
  ⟨h.size, by rw [h.len]; exact h.le, fun i hi => ⟨l[i]'(by rw [← h.len]; exact hi), h.cells i _⟩⟩

theorem holds_of_usable {c : Cfg} {v : StackVec} (h : Usable c v) : ∃ l, Holds (bigintLimbs c) v l := by
  refine ⟨(List.range v.length).map fun i => ((v.data[i]?).getD none).getD 0, h.size, by simp, fun i hi => ?_⟩
  have hi' : i < v.length := by simpa using hi
  obtain ⟨x, hx⟩ := h.written i hi'
  simp [hx]

theorem holds_of_take {c : Cfg} {v : StackVec} {l : Limbs} (hs : v.data.length = bigintLimbs c) (ht : v.data.take v.length = l.map some) (hl : l.length = v.length) :
    Holds (bigintLimbs c) v l := by
  refine ⟨hs, hl.symm, fun i hi => ?_⟩
  have h1 : (v.data.take v.length)[i]? = some (some l[i]) := by rw [ht]; simp [hi]
  rw [List.getElem?_take_of_lt (by omega)] at h1
  exact h1

theorem take_of_holds {cap : Nat} {v : StackVec} {l : Limbs} (h : Holds cap v l) : v.data.take v.length = l.map some := by
  obtain ⟨t, ht, _⟩ := holds_split h
  rw [ht, h.len]
  simp

theorem stores_iff {c : Cfg} {v : StackVec} {V : Nat} : Stores c v V ↔ ∃ l, Holds (bigintLimbs c) v l ∧ IsBig c l V := by
  constructor
  · rintro ⟨hs, l, ht, hl, hb⟩; exact ⟨l, holds_of_take hs ht hl, hb⟩
  · rintro ⟨l, h, hb⟩; exact ⟨h.size, l, take_of_holds h, h.len.symm, hb⟩

theorem runs_of {c : Cfg} {m : M (Bool × StackVec)} {op : Exec Limbs} {V : Nat} (h : Refines (bigintLimbs c) m op) (hc : Computes c op V) : Runs c m V := by
  obtain ⟨v', ⟨h1, r, h2, h3⟩ | ⟨h1, h2, r, h3⟩⟩ := h
  · constructor
    · intro hV
      obtain ⟨r', h4, h5⟩ := hc.exact hV
      rw [h2] at h4
      have := Except.ok.inj h4
      subst this
      exact ⟨v', h1, stores_iff.2 ⟨r, h3, h5⟩⟩
    · intro hV
      have h4 := hc.fails hV
      rw [h2] at h4; cases h4
  · constructor
    · intro hV
      obtain ⟨r', h4, h5⟩ := hc.exact hV
      rw [h2] at h4; cases h4
    · intro _
      exact ⟨v', h1, usable_of_holds h3⟩

theorem safe_of {c : Cfg} {m : M (Bool × StackVec)} {op : Exec Limbs} (h : Refines (bigintLimbs c) m op) : ∃ b v', m = .ok (b, v') ∧ Usable c v' := by
  obtain ⟨v', ⟨h1, r, _, h3⟩ | ⟨h1, _, r, h3⟩⟩ := h
  · exact ⟨true, v', h1, usable_of_holds h3⟩
  · exact ⟨false, v', h1, usable_of_holds h3⟩

/-- A stored number is usable, and a vector stores at most one number. -/
theorem C70_stores {c : Cfg} {v : StackVec} {V : Nat} (h : Stores c v V) : Usable c v ∧ V < bigLimit c ∧ ∀ W, Stores c v W → W = V := by
  obtain ⟨l, hl, hb⟩ := stores_iff.1 h
  refine ⟨usable_of_holds hl, (isBig_iff.1 hb).lt, fun W hW => ?_⟩
  obtain ⟨l', hl', hb'⟩ := stores_iff.1 hW
  have e : l = l' := by
    have h1 := take_of_holds hl
    rw [take_of_holds hl'] at h1
    exact (List.map_injective_iff.2 (Option.some_injective _) h1).symm
  subst e
  rw [← hb.value, ← hb'.value]

/-- **C70**, safety.  Whatever the limbs of a usable vector are and whatever the arguments: no operation accesses anything outside the array, reads a cell
that was not written or fails an assertion, and every one leaves a usable vector, whether it reports success or not. -/
theorem C70_safe (c : Cfg) {v : StackVec} (hv : Usable c v) (y n : Nat) :
    (∃ b v', Mem.smallMul c v y = .ok (b, v') ∧ Usable c v') ∧
    (∀ start ≤ v.length, ∃ b v', Mem.smallAddFrom c v y start = .ok (b, v') ∧ Usable c v') ∧
    (∃ b v', Mem.shl c v n = .ok (b, v') ∧ Usable c v') ∧
    (∃ b v', Mem.pow5 c v n = .ok (b, v') ∧ Usable c v') ∧
    (∃ b v', Mem.pow10 c v n = .ok (b, v') ∧ Usable c v') ∧
    (∃ v', v.normalize = .ok v' ∧ Usable c v') ∧
    (∃ b, v.nonzero n = .ok b) := by
  obtain ⟨l, hl⟩ := holds_of_usable hv
  have hc := (cap_facts c).1
  refine ⟨safe_of (smallMul_refines c rfl hc hl y), fun start hs => safe_of (smallAddFrom_refines c rfl hc hl y start (by rw [← hl.len]; exact hs)),
    safe_of (shl_refines c rfl hc hl n), safe_of (pow5_refines c rfl hc hl n), safe_of (pow10_refines c rfl hc hl n), ?_, _, nonzero_ok hl n⟩
  obtain ⟨v', e, h⟩ := normalize_ok hl
  exact ⟨v', e, usable_of_holds h⟩

/-- **C70**, safety of the operations on two vectors. -/
theorem C70_safe_two (c : Cfg) {x y : StackVec} (hx : Usable c x) (hy : Usable c y) (start : Nat) :
    (∃ b v', Mem.longMul c x y.span = .ok (b, v') ∧ Usable c v') ∧
    (∃ b v', Mem.largeAddFrom c x y.span start = .ok (b, v') ∧ Usable c v') ∧
    (∃ o, Mem.compare x y = .ok o ∧ (o = -1 ∨ o = 0 ∨ o = 1)) := by
  obtain ⟨lx, hlx⟩ := holds_of_usable hx
  obtain ⟨ly, hly⟩ := holds_of_usable hy
  have hc := (cap_facts c).1
  refine ⟨safe_of (longMul_refines c rfl hc hlx hly.span), safe_of (largeAddFrom_refines c rfl hc hlx hly.span start), _, compare_eq hlx hly, ?_⟩
  unfold bigCompare
  split
  · simp
  · split
    · simp
    · obtain ⟨a, ha⟩ : ∃ a, lx.reverse = a := ⟨_, rfl⟩
      obtain ⟨b, hb⟩ : ∃ b, ly.reverse = b := ⟨_, rfl⟩
      have : ∀ a b : Limbs, FastFloat.compareLoop a b = -1 ∨ FastFloat.compareLoop a b = 0 ∨ FastFloat.compareLoop a b = 1 := by
        intro a
        induction a with
        | nil => intro b; simp [FastFloat.compareLoop]
        | cons x xs ih =>
          intro b
          cases b with
          | nil => simp [FastFloat.compareLoop]
          | cons y ys =>
            unfold FastFloat.compareLoop
            split
            · simp
            · split
              · simp
              · exact ih ys
      exact this _ _

/-- **C70**, construction from a 64-bit integer: the array starts out without a value. -/
theorem C70_of_u64 (c : Cfg) {x : Nat} (h : x < 2 ^ 64) : ∃ v, Mem.bigOfU64 c x = .ok v ∧ Stores c v x := by
  obtain ⟨v, e, hv⟩ := bigOfU64_ok c rfl (cap_facts c).1 (cap_facts c).2 x
  exact ⟨v, e, stores_iff.2 ⟨_, hv, C68_of_u64 c h⟩⟩

/-- **C70**, `small_mul`. -/
theorem C70_small_mul {c : Cfg} {v : StackVec} {V y : Nat} (hv : Stores c v V) (hy : y < 2 ^ limbBits c) (hy0 : y ≠ 0) : Runs c (Mem.smallMul c v y) (V * y) := by
  obtain ⟨l, hl, hb⟩ := stores_iff.1 hv
  exact runs_of (smallMul_refines c rfl (cap_facts c).1 hl y) (C68_small_mul hb hy hy0)

/-- **C70**, `small_add`. -/
theorem C70_small_add {c : Cfg} {v : StackVec} {V y : Nat} (hv : Stores c v V) (hy : y < 2 ^ limbBits c) : Runs c (Mem.smallAddFrom c v y 0) (V + y) := by
  obtain ⟨l, hl, hb⟩ := stores_iff.1 hv
  exact runs_of (smallAddFrom_refines c rfl (cap_facts c).1 hl y 0 (Nat.zero_le _)) (C68_small_add hb hy)

/-- **C70**, `long_mul`. -/
theorem C70_long_mul {c : Cfg} {x y : StackVec} {X Y : Nat} (hx : Stores c x X) (hy : Stores c y Y) (hX : 0 < X) (hY : 0 < Y) :
    Runs c (Mem.longMul c x y.span) (X * Y) := by
  obtain ⟨lx, hlx, hbx⟩ := stores_iff.1 hx
  obtain ⟨ly, hly, hby⟩ := stores_iff.1 hy
  exact runs_of (longMul_refines c rfl (cap_facts c).1 hlx hly.span) (C68_long_mul hbx hby hX hY)

/-- **C70**, `shl` / `pow2`. -/
theorem C70_shl {c : Cfg} {v : StackVec} {V : Nat} (n : Nat) (hv : Stores c v V) (hV : 0 < V) : Runs c (Mem.shl c v n) (V * 2 ^ n) := by
  obtain ⟨l, hl, hb⟩ := stores_iff.1 hv
  exact runs_of (shl_refines c rfl (cap_facts c).1 hl n) (C68_shl n hb hV)

/-- **C70**, `pow5`. -/
theorem C70_pow5 {c : Cfg} {v : StackVec} {V : Nat} (n : Nat) (hv : Stores c v V) (hV : 0 < V) : Runs c (Mem.pow5 c v n) (V * 5 ^ n) := by
  obtain ⟨l, hl, hb⟩ := stores_iff.1 hv
  exact runs_of (pow5_refines c rfl (cap_facts c).1 hl n) (C68_pow5 n hb hV)

/-- **C70**, `pow10`. -/
theorem C70_pow10 {c : Cfg} {v : StackVec} {V : Nat} (n : Nat) (hv : Stores c v V) (hV : 0 < V) : Runs c (Mem.pow10 c v n) (V * 10 ^ n) := by
  obtain ⟨l, hl, hb⟩ := stores_iff.1 hv
  exact runs_of (pow10_refines c rfl (cap_facts c).1 hl n) (C68_pow10 n hb hV)

/-- **C70**, `compare`. -/
theorem C70_compare {c : Cfg} {x y : StackVec} {X Y : Nat} (hx : Stores c x X) (hy : Stores c y Y) :
    Mem.compare x y = .ok (if X > Y then 1 else if X < Y then -1 else 0) := by
  obtain ⟨lx, hlx, hbx⟩ := stores_iff.1 hx
  obtain ⟨ly, hly, hby⟩ := stores_iff.1 hy
  obtain ⟨h1, h2, h3⟩ := C68_compare hbx hby
  obtain ⟨_, _, o, e, ho⟩ := C70_safe_two c (usable_of_holds hlx) (usable_of_holds hly) 0
  rw [compare_eq hlx hly] at e ⊢
  have e := Except.ok.inj e
  rw [e] at h1 h2 h3
  rw [e]
  congr 1
  split
  · have := h1.2 ‹_›; omega
  · split
    · have := h2.2 ‹_›; omega
    · exact h3.2 (by omega)

/-- **C70**, `hi64` and `bit_length`: the bit length `L`, the 64 bits below it, and whether anything nonzero is below those. -/
theorem C70_hi64 {c : Cfg} {v : StackVec} {V : Nat} (hv : Stores c v V) (hV : 0 < V) :
    ∃ (L m : Nat) (truncated : Bool), Mem.bitLength c v = .ok L ∧ Mem.hi64 c v = .ok (m, truncated) ∧
      2 ^ (L - 1) ≤ V ∧ V < 2 ^ L ∧ m = V * 2 ^ 64 / 2 ^ L ∧ (truncated = true ↔ ¬ 2 ^ L ∣ V * 2 ^ 64) := by
  obtain ⟨l, hl, hb⟩ := stores_iff.1 hv
  obtain ⟨L, m, t, h1, h2, h3⟩ := C68_hi64 hb hV
  exact ⟨L, m, t, by rw [bitLength_eq c hl]; exact lift_ok h1, by rw [hi64_eq c hl]; exact lift_ok h2, h3⟩

/-- **C70**, end to end.  A call of the float overload whose big integers are arrays of indeterminate cells, with every failure of a big-integer operation
ignored as the program does, has no fault on any input, and it does what the list-level model does: all the theorems about `fromCharsFloat` are theorems
about this program. -/
theorem C70_from_chars (c : Cfg) {ct : CharType} (hw : ct.WF) (T : FloatTy) {s : List Nat} (opt : Options) (hu : ∀ u ∈ s, UnitOK ct u)
    (hl : s.length < 2 ^ 62) :
    ∃ r, Mem.fromCharsFloat c ct T.fmt s opt = .ok r ∧ fromCharsFloat c ct T.fmt s opt = .ok r ∧ r.off ≤ s.length := by
  obtain ⟨r, h1, h2⟩ := C24_float_defined c hw T opt hu hl
  exact ⟨r, Mem.fromCharsFloat_ok c ct T.fmt s opt h1, h1, h2⟩

/-! ### The hypotheses are met -/

/-- A text that takes the slow path, on 32-bit limbs. -/
example : ∃ r, Mem.fromCharsFloat { Cfg.x64 with limb64 := false } CharType.char FloatTy.double.fmt sampleText {} = .ok r ∧
    fromCharsFloat { Cfg.x64 with limb64 := false } CharType.char FloatTy.double.fmt sampleText {} = .ok r ∧ r.off ≤ sampleText.length :=
  C70_from_chars _ (by decide) .double {} sample_input.ok (by decide)

set_option exponentiation.threshold 5000 in
/-- `7 * 5^100`, then `* 10^20` in a fresh vector. -/
example (c : Cfg) : ∃ v w x, Mem.bigOfU64 c 7 = .ok v ∧ Mem.pow5 c v 100 = .ok (true, w) ∧ Mem.pow10 c w 20 = .ok (true, x) ∧
    Stores c x (7 * 5 ^ 100 * 10 ^ 20) := by
  have hlim : 2 ^ 400 ≤ bigLimit c := by
    unfold bigLimit
    split <;> exact Nat.pow_le_pow_right (by norm_num) (by norm_num)
  obtain ⟨v, e1, h1⟩ := C70_of_u64 c (x := 7) (by norm_num)
  obtain ⟨w, e2, h2⟩ := (C70_pow5 100 h1 (by norm_num)).exact (lt_of_lt_of_le (by norm_num) hlim)
  obtain ⟨x, e3, h3⟩ := (C70_pow10 20 h2 (by norm_num)).exact (lt_of_lt_of_le (by norm_num) hlim)
  exact ⟨v, w, x, e1, e2, e3, h3⟩

set_option exponentiation.threshold 5000 in
/-- Shifting `1` out of the vector: failure, no fault, and a vector that can be used. -/
example (c : Cfg) : ∃ v w, Mem.bigOfU64 c 1 = .ok v ∧ Mem.shl c v 4000 = .ok (false, w) ∧ Usable c w := by
  obtain ⟨v, e1, h1⟩ := C70_of_u64 c (x := 1) (by norm_num)
  have hlim : bigLimit c ≤ 1 * 2 ^ 4000 := by
    unfold bigLimit
    rw [Nat.one_mul]
    split <;> exact Nat.pow_le_pow_right (by norm_num) (by norm_num)
  obtain ⟨w, e2, h2⟩ := (C70_shl 4000 h1 (by norm_num)).fails hlim
  exact ⟨v, w, e1, e2, h2⟩

/-! ### The fault model has teeth

What "no fault" excludes, for every vector: the theorems above would say nothing if these accesses were let through. -/

/-- **C70**: reading a cell that was never written, or a cell outside the array, is a fault, and so is writing outside it. -/
theorem C70_faults_cells (d : Mem.Cells) (i x : Nat) :
    ((∃ y, Mem.readCell d i = .ok y) ↔ ∃ y, d[i]? = some (some y)) ∧ ((∃ d', Mem.writeCell d i x = .ok d') ↔ i < d.length) := by
  refine ⟨?_, ?_⟩
  · unfold Mem.readCell
    rcases d[i]? with _ | _ | y <;> simp
  · unfold Mem.writeCell
    split <;> simp_all

/-- **C70**: an index at or behind the length of a vector or span is a fault even where the array goes on, for every accessor. -/
theorem C70_faults_index (v : Mem.StackVec) (s : Mem.Span) (i x : Nat) :
    (v.length ≤ i → v.get i = .error .assertion ∧ v.set i x = .error .assertion ∧ v.rindex i = .error .assertion) ∧
    (s.length ≤ i → s.get i = .error .assertion) := by
  constructor
  · intro h
    unfold Mem.StackVec.get Mem.StackVec.set Mem.StackVec.rindex
    simp [Nat.not_lt.2 h]
  · intro h
    unfold Mem.Span.get
    simp [Nat.not_lt.2 h]

/-- **C70**: no cell of a new vector may be read before it is written, and its length is 0. -/
theorem C70_faults_fresh (size i : Nat) (h : i < size) :
    Mem.readCell (Mem.StackVec.fresh size).data i = .error .uninit ∧ (Mem.StackVec.fresh size).length = 0 ∧
      (Mem.StackVec.fresh size).data.length = size := by
  refine ⟨?_, rfl, ?_⟩
  · unfold Mem.readCell Mem.StackVec.fresh
    simp [h]
  · unfold Mem.StackVec.fresh
    simp

/-- A fresh vector has no readable element, in the array or by index. -/
example : Mem.readCell (Mem.StackVec.fresh 62).data 0 = .error .uninit ∧ (Mem.StackVec.fresh 62).get 0 = .error .assertion ∧
    (∃ v, (Mem.StackVec.fresh 62).pushUnchecked 7 = .ok v ∧ v.get 0 = .ok 7) := by
  refine ⟨rfl, rfl, _, rfl, rfl⟩

end FastFloat
