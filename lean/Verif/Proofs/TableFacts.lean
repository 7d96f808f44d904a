import Verif.Model.Decimal
import Verif.Proofs.Cert
import Mathlib.Tactic.Linarith
import Mathlib.Tactic.Ring
/-
# Every entry of the power-of-five table, checked by the kernel
-/
namespace FastFloat

/-- `floor (log2 (5^q)) - 127`. -/
def tExp (q : Int) : Int := (217706 * q).fdiv 65536 - q - 127

/-- `5^q / 2^(tExp q) = tNum q / tDen q`. -/
def tNum (q : Int) : Nat := if 0 ≤ q then 5 ^ q.toNat * 2 ^ (-tExp q).toNat else 2 ^ (-tExp q).toNat
def tDen (q : Int) : Nat := if 0 ≤ q then 2 ^ (tExp q).toNat else 5 ^ (-q).toNat

/-- The entry is rounded up (`-27 ≤ q < 0`). -/
def EntryUp (q : Int) (hi lo : Nat) : Prop :=
  (hi * 2 ^ 64 + lo) * tDen q < tNum q + tDen q ∧ tNum q < (hi * 2 ^ 64 + lo) * tDen q ∧ lo ≠ 0 ∧
  tDen q * 2 ^ 64 ≤ 2 ^ (min 137 (-tExp q).toNat)

/-- No 64-bit word times the high word is 0 or 1 modulo `2^73` (`-24 ≤ q < 0`). -/
def EntryTie (q : Int) (hi : Nat) (c : Cert) : Prop :=
  tDen q * 2 ^ 65 ≤ 2 ^ (min 137 (-tExp q).toNat) ∧
  ((hi % 2 = 1 ∧ c.w1 * hi % 2 ^ 73 = 1 ∧ 2 ^ 64 ≤ c.w1 ∧ c.w1 < 2 ^ 73) ∨ (hi % 2 = 0 ∧ hi % 8 ≠ 0))

/-- The entry is truncated, with the certificate of `Verif.Proofs.Cert`. -/
def EntryDown (q : Int) (hi lo : Nat) (c : Cert) : Prop :=
  (hi * 2 ^ 64 + lo) * tDen q ≤ tNum q ∧ tNum q < (hi * 2 ^ 64 + lo + 1) * tDen q ∧
  c.p1 * c.w2 = c.p2 * c.w1 + 1 ∧ (hi * 2 ^ 64 + lo) * c.w1 + 2 ^ 64 ≤ c.p1 * 2 ^ 137 ∧
  c.p2 * 2 ^ 137 ≤ (hi * 2 ^ 64 + lo) * c.w2 ∧ 2 ^ 64 ≤ c.w1 + c.w2

/-- Exact entries that fit one word. -/
def EntryExact (q : Int) (hi lo : Nat) : Prop := lo = 0 ∧ hi % 2 = 0 ∧ tNum q = hi * 2 ^ 64 ∧ tDen q = 1

instance (q : Int) (hi lo : Nat) : Decidable (EntryUp q hi lo) := by unfold EntryUp; infer_instance
instance (q : Int) (hi : Nat) (c : Cert) : Decidable (EntryTie q hi c) := by unfold EntryTie; infer_instance
instance (q : Int) (hi lo : Nat) (c : Cert) : Decidable (EntryDown q hi lo c) := by unfold EntryDown; infer_instance
instance (q : Int) (hi lo : Nat) : Decidable (EntryExact q hi lo) := by unfold EntryExact; infer_instance

/-- What the kernel checks of one entry. -/
def EntryOK (q : Int) (hi lo : Nat) (c : Cert) : Prop :=
  hi < 2 ^ 64 ∧ lo < 2 ^ 64 ∧ 2 ^ 63 ≤ hi ∧ (2 ^ 127 * tDen q ≤ tNum q ∧ tNum q < 2 ^ 128 * tDen q) ∧
  ((-27 ≤ q ∧ q < 0) → EntryUp q hi lo) ∧ ((-24 ≤ q ∧ q < 0) → EntryTie q hi c) ∧
  (¬ (-27 ≤ q ∧ q < 0) → EntryDown q hi lo c) ∧ ((0 ≤ q ∧ q ≤ 27) → EntryExact q hi lo)

instance (q : Int) (hi lo : Nat) (c : Cert) : Decidable (EntryOK q hi lo c) := by unfold EntryOK; infer_instance

/-- All entries from index `i` on. -/
def checkTable : Int → List Nat → List Cert → Bool
  | q, hi :: lo :: ts, c :: cs => (c.q == q) && decide (EntryOK c.q hi lo c) && checkTable (c.q + 1) ts cs
  | _, [], [] => true
  | _, _, _ => false

theorem table_checked : checkTable (-342) powerOfFive128 certs = true := by decide +kernel

theorem certs_length : certs.length = 651 := by decide +kernel

theorem checkTable_get : ∀ (cs : List Cert) (ts : List Nat) (q : Int), checkTable q ts cs = true →
    ∀ i, i < cs.length → ∃ hi lo c, ts[2 * i]? = some hi ∧ ts[2 * i + 1]? = some lo ∧ EntryOK (q + i) hi lo c := by
  intro cs
  induction cs with
  | nil => intro ts q _ i hi; simp at hi
  | cons c cs ih =>
    intro ts q h i hi
    match ts, h with
    | [], h => simp [checkTable] at h
    | [_], h => simp [checkTable] at h
    | hi' :: lo' :: ts, h =>
      simp only [checkTable, Bool.and_eq_true, beq_iff_eq, decide_eq_true_eq] at h
      obtain ⟨⟨h1, h2⟩, h3⟩ := h
      cases i with
      | zero => exact ⟨hi', lo', c, rfl, rfl, by simpa [h1] using h2⟩
      | succ i =>
        obtain ⟨a, b, c', ha, hb, hc⟩ := ih ts _ h3 i (by simpa using hi)
        refine ⟨a, b, c', ?_, ?_, ?_⟩
        · rw [show 2 * (i + 1) = 2 * i + 1 + 1 by ring]; simpa using ha
        · rw [show 2 * (i + 1) + 1 = 2 * i + 1 + 1 + 1 by ring]; simpa using hb
        · rw [h1] at hc
          have e : q + ((i + 1 : Nat) : Int) = q + 1 + i := by push_cast; ring
          rw [e]; exact hc

/-- The two words of the table for `5^q`. -/
theorem table_entry (q : Int) (h1 : -342 ≤ q) (h2 : q ≤ 308) : ∃ hi lo c, 
    tableGetInt powerOfFive128 (2 * (q - smallestPowerOfFive)) = .ok hi ∧
    tableGetInt powerOfFive128 (2 * (q - smallestPowerOfFive) + 1) = .ok lo ∧ EntryOK q hi lo c := by
  obtain ⟨i, hi⟩ : ∃ i : Nat, q = -342 + i := ⟨(q + 342).toNat, by omega⟩
  obtain ⟨a, b, c, ha, hb, hc⟩ := checkTable_get certs powerOfFive128 (-342) table_checked i (by rw [certs_length]; omega)
  refine ⟨a, b, c, ?_, ?_, by rw [hi]; exact hc⟩
  · have e : 2 * (q - smallestPowerOfFive) = ((2 * i : Nat) : Int) := by unfold smallestPowerOfFive; push_cast; omega
    unfold tableGetInt
    rw [e, if_neg (by omega), Int.toNat_natCast]
    unfold tableGet; rw [ha]
  · have e : 2 * (q - smallestPowerOfFive) + 1 = ((2 * i + 1 : Nat) : Int) := by unfold smallestPowerOfFive; push_cast; omega
    unfold tableGetInt
    rw [e, if_neg (by omega), Int.toNat_natCast]
    unfold tableGet; rw [hb]

end FastFloat
