import Verif.Props.Build
/-
# C24, C25: the fault model of the executions has teeth

C24 and C25 say that an execution never goes wrong.  These theorems say what "going wrong" covers, operation by operation and for all operands: exactly the
accesses and operations that are undefined in C++ (or fail) are faults.  Without them, C24 would say nothing about a model in which, say, reading at the end of
the text were let through.
-/
set_option autoImplicit false
namespace FastFloat

/-- **C24**: the text.  Reading at the end of the text, reading a block that is longer than what is left, and moving a pointer beyond the end are faults; anything
else is not, and gives the characters of the text. -/
theorem C24_faults_text (p : List Nat) (n : Nat) :
    (∀ u, deref p = .ok u ↔ p.head? = some u) ∧ (deref p = .error .outOfBounds ↔ p = []) ∧
    (∀ q, advance p = .ok q ↔ ∃ u, p = u :: q) ∧ (advance p = .error .outOfBounds ↔ p = []) ∧
    (∀ q, readBlock n p = .ok q ↔ ∃ r, p = q ++ r ∧ q.length = n) ∧ (readBlock n p = .error .outOfBounds ↔ p.length < n) ∧
    (∀ q, skipN n p = .ok q ↔ ∃ r, p = r ++ q ∧ r.length = n) ∧ (skipN n p = .error .outOfBounds ↔ p.length < n) := by
  have hb : ∀ q, readBlock n p = .ok q ↔ ∃ r, p = q ++ r ∧ q.length = n := by
    intro q
    unfold readBlock
    constructor
    · intro h
      split at h
      · rename_i hn
        cases h
        exact ⟨p.drop n, (List.take_append_drop n p).symm, by rw [List.length_take]; omega⟩
      · cases h
    · rintro ⟨r, rfl, rfl⟩
      rw [if_pos (by simp)]
      simp
  have hs : ∀ q, skipN n p = .ok q ↔ ∃ r, p = r ++ q ∧ r.length = n := by
    intro q
    unfold skipN
    constructor
    · intro h
      split at h
      · rename_i hn
        cases h
        exact ⟨p.take n, (List.take_append_drop n p).symm, by rw [List.length_take]; omega⟩
      · cases h
    · rintro ⟨r, rfl, rfl⟩
      rw [if_pos (by simp)]
      simp
  refine ⟨?_, ?_, ?_, ?_, hb, ?_, hs, ?_⟩
  · intro u; cases p <;> simp [deref]
  · cases p <;> simp [deref]
  · intro q; cases p <;> simp [advance]
  · cases p <;> simp [advance]
  · unfold readBlock; split <;> simp_all
  · unfold skipN; split <;> simp_all

/-- **C24**: the tables.  Reading a table outside its bounds (also at a negative index) is a fault; inside it gives the entry. -/
theorem C24_faults_tables {α : Type} (t : List α) (i : Nat) (j : Int) :
    (∀ x, tableGet t i = .ok x ↔ t[i]? = some x) ∧ (tableGet t i = .error .tableIndex ↔ t.length ≤ i) ∧
    (∀ x, tableGetInt t j = .ok x ↔ 0 ≤ j ∧ t[j.toNat]? = some x) ∧ (tableGetInt t j = .error .tableIndex ↔ j < 0 ∨ (t.length : Int) ≤ j) := by
  have h1 : ∀ i x, tableGet t i = .ok x ↔ t[i]? = some x := by
    intro i x
    unfold tableGet
    cases h : t[i]? <;> simp
  have h2 : ∀ i, tableGet t i = .error .tableIndex ↔ t.length ≤ i := by
    intro i
    unfold tableGet
    rw [← List.getElem?_eq_none_iff]
    cases h : t[i]? <;> simp
  refine ⟨h1 i, h2 i, ?_, ?_⟩
  · intro x
    unfold tableGetInt
    split
    · simp; omega
    · rw [h1]; simp; omega
  · unfold tableGetInt
    split
    · simp; omega
    · rw [h2]; omega

/-- **C24**: shifts.  A shift by the width of the word or more is a fault; a smaller one multiplies or divides by the power of two. -/
theorem C24_faults_shifts (x n : Nat) :
    (∀ y, shl64 x n = .ok y ↔ n < 64 ∧ y = x * 2 ^ n % 2 ^ 64) ∧ (shl64 x n = .error .shift ↔ 64 ≤ n) ∧
    (∀ y, shr64 x n = .ok y ↔ n < 64 ∧ y = x / 2 ^ n) ∧ (shr64 x n = .error .shift ↔ 64 ≤ n) ∧
    (∀ y, shl32 x n = .ok y ↔ n < 32 ∧ y = x * 2 ^ n % 2 ^ 32) ∧ (shl32 x n = .error .shift ↔ 32 ≤ n) := by
  unfold shl64 shr64 shl32
  refine ⟨?_, ?_, ?_, ?_, ?_, ?_⟩
  · intro y; by_cases h : n < 64
    · rw [if_pos h]; simp [h, eq_comm]
    · rw [if_neg h]; simp [h]
  · by_cases h : n < 64
    · rw [if_pos h]; simp; omega
    · rw [if_neg h]; simp; omega
  · intro y; by_cases h : n < 64
    · rw [if_pos h]; simp [h, eq_comm]
    · rw [if_neg h]; simp [h]
  · by_cases h : n < 64
    · rw [if_pos h]; simp; omega
    · rw [if_neg h]; simp; omega
  · intro y; by_cases h : n < 32
    · rw [if_pos h]; simp [h, eq_comm]
    · rw [if_neg h]; simp [h]
  · by_cases h : n < 32
    · rw [if_pos h]; simp; omega
    · rw [if_neg h]; simp; omega

theorem chk_ok {m : Int} {x y : Int} : (if -m ≤ x ∧ x < m then (.ok x : Exec Int) else .error .signedOverflow) = .ok y ↔ (-m ≤ x ∧ x < m) ∧ y = x := by
  split <;> simp_all [eq_comm]

/-- **C24**: signed arithmetic.  A result that is not a value of the signed type is a fault; any other result is exact. -/
theorem C24_faults_signed (x y : Int) :
    (chk32 x = .ok y ↔ (-2 ^ 31 ≤ x ∧ x < 2 ^ 31) ∧ y = x) ∧ (chk64 x = .ok y ↔ (-2 ^ 63 ≤ x ∧ x < 2 ^ 63) ∧ y = x) ∧
    (chk128 x = .ok y ↔ (-2 ^ 127 ≤ x ∧ x < 2 ^ 127) ∧ y = x) := ⟨chk_ok, chk_ok, chk_ok⟩

/-- **C24**: `__builtin_clzll(0)` is a fault in every build. -/
theorem C24_faults_clz (c : Cfg) (x : Nat) : leadingZeroes c x = .error .clzZero ↔ x = 0 := by
  unfold leadingZeroes
  by_cases h : x = 0
  · simp [h]
  · rw [if_neg h]
    split <;> simp [h]

/-- **C24**: the fixed-capacity vector.  Pushing to a full vector and growing one beyond its capacity are failures, and so is reading outside of it. -/
theorem C24_faults_vector (c : Cfg) (v : Limbs) (x n : Nat) :
    (tryPush c v x = .error .capacity ↔ bigintLimbs c ≤ v.length) ∧ (shlLimbs c v n = .error .capacity ↔ bigintLimbs c < n + v.length) ∧
    (rindex v n = .error .outOfBounds ↔ v.length ≤ n) := by
  refine ⟨?_, ?_, ?_⟩
  · unfold tryPush; split <;> simp_all
  · unfold shlLimbs
    split
    · simp_all
    · split <;> simp_all
  · unfold rindex
    split
    · rename_i h
      have : ∃ y, tableGet v (v.length - n - 1) = .ok y := by
        refine ⟨v[v.length - n - 1]'(by omega), ?_⟩
        rw [((C24_faults_tables v (v.length - n - 1) 0).1 _)]
        exact List.getElem?_eq_getElem (by omega)
      obtain ⟨y, hy⟩ := this
      rw [hy]; simp; omega
    · simp_all

/-- **C24**: a loop that has used up the number of rounds the model grants it is a fault, so "no fault" includes that the loops end. -/
theorem C24_faults_rounds (c : Cfg) (ct : CharType) (p : List Nat) (v : Limbs) (i k : Nat) (j : Int) (st : PMState) :
    simdEightLoop c 0 p i = .error .fuel ∧ charEightLoop c ct 0 p i = .error .fuel ∧ pow5Large c 0 v i = .error .fuel ∧ pow5Small c 0 v i = .error .fuel ∧
    sciLoop k j 0 i j = .error .fuel ∧ skipZerosBlocks c ct 0 p = .error .fuel ∧ isTruncatedBlocks c ct 0 p = .error .fuel ∧
    pmEightLoop c ct i k 0 st = .error .fuel ∧ pmOneLoop c i k 0 st = .error .fuel := ⟨rfl, rfl, rfl, rfl, rfl, rfl, rfl, rfl, rfl⟩

/-- Nothing of the above is vacuous. -/
example : deref [] = .error .outOfBounds ∧ readBlock 8 [48, 48, 48] = .error .outOfBounds ∧ tableGet [1, 2, 3] 3 = .error .tableIndex ∧
    shl64 1 64 = .error .shift ∧ chk64 (2 ^ 63) = .error .signedOverflow ∧ chk64 (2 ^ 63 - 1) = .ok (2 ^ 63 - 1) :=
  ⟨rfl, rfl, rfl, rfl, by decide, by decide⟩

end FastFloat
