import Verif.Model.BigInt
/-
# bigint.h, at the level of memory

`Verif.Model.BigInt` treats a `stackvec` as a list.  Here it is what it is in the program: an array `data[size]` whose cells may never have been written,
a 16-bit `length`, element access by index, `std::copy_n` / `std::copy_backward` / `std::fill` cell by cell, and functions that return `false` after having
modified the vector in part.  Touching a cell outside the array, reading a cell that was never written, or an index that fails a
`FASTFLOAT_DEBUG_ASSERT` is a fault.
-/
set_option autoImplicit false
namespace FastFloat
namespace Mem

/-- The ways an access can go wrong.  `word` is undefined behaviour of a word operation, `fuel` a loop that does not end in its budget. -/
inductive Fault where
  | bounds | uninit | assertion | word (u : UB) | fuel
  deriving DecidableEq, Repr

/-- Execution with faults. -/
abbrev M (α : Type) := Except Fault α

/-- A word operation of the list model, used here. -/
def lift {α : Type} : Exec α → M α
  | .ok a => .ok a
  | .error u => .error (.word u)

/-- A C array of limbs; `none` is an indeterminate value. -/
abbrev Cells := List (Option Nat)

/-- `d[i]` as a value. -/
def readCell (d : Cells) (i : Nat) : M Nat :=
  match d[i]? with
  | none => .error .bounds
  | some none => .error .uninit
  | some (some x) => .ok x

/-- `d[i] = x`. -/
def writeCell (d : Cells) (i x : Nat) : M Cells := if i < d.length then .ok (d.set i (some x)) else .error .bounds

/-- `stackvec<size>` (bigint.h:40-43): `data` has `size` cells. -/
structure StackVec where
  data : Cells
  length : Nat

/-- `limb_span` (float_common.h:445-460): a pointer (here the array it points into) and a length. -/
structure Span where
  data : Cells
  length : Nat

/-- `span::operator[]` (float_common.h:456-459). -/
def Span.get (s : Span) (i : Nat) : M Nat := if i < s.length then readCell s.data i else .error .assertion

/-- `stackvec()` (bigint.h:45): no cell is written. -/
def StackVec.fresh (size : Nat) : StackVec := ⟨List.replicate size none, 0⟩

/-- `limb_span(x.data, x.len())`. -/
def StackVec.span (v : StackVec) : Span := ⟨v.data, v.length⟩

/-- `stackvec::operator[]` as a value (bigint.h:56-64). -/
def StackVec.get (v : StackVec) (i : Nat) : M Nat := if i < v.length then readCell v.data i else .error .assertion

/-- Assignment through `stackvec::operator[]` (bigint.h:56-59). -/
def StackVec.set (v : StackVec) (i x : Nat) : M StackVec :=
  if i < v.length then do
    let d ← writeCell v.data i x
    pure { v with data := d }
  else .error .assertion

/-- `stackvec::rindex` (bigint.h:67-71). -/
def StackVec.rindex (v : StackVec) (i : Nat) : M Nat := if i < v.length then readCell v.data (v.length - i - 1) else .error .assertion

/-- `stackvec::set_len` (bigint.h:74-76): the length is a `uint16_t`. -/
def StackVec.setLen (v : StackVec) (n : Nat) : StackVec := { v with length := n % 2 ^ 16 }

/-- `stackvec::push_unchecked` (bigint.h:85-88). -/
def StackVec.pushUnchecked (v : StackVec) (x : Nat) : M StackVec := do
  let d ← writeCell v.data v.length x
  pure ⟨d, (v.length + 1) % 2 ^ 16⟩

/-- `stackvec::try_push` (bigint.h:91-98). -/
def StackVec.tryPush (v : StackVec) (x : Nat) : M (Bool × StackVec) :=
  if v.length < v.data.length then do
    let v ← v.pushUnchecked x
    pure (true, v)
  else pure (false, v)

/-- `std::copy_n(src, n, d + pos)` from index `k` on. -/
def copyN (src : Cells) (pos : Nat) : Nat → Nat → Cells → M Cells
  | 0, _, d => .ok d
  | n + 1, k, d => do
    let x ← readCell src k
    let d ← writeCell d (pos + k) x
    copyN src pos n (k + 1) d

/-- `stackvec::extend_unchecked` (bigint.h:101-105). -/
def StackVec.extendUnchecked (v : StackVec) (s : Span) : M StackVec := do
  let d ← copyN s.data v.length s.length 0 v.data
  pure (StackVec.setLen ⟨d, v.length⟩ (v.length + s.length))

/-- `stackvec::try_extend` (bigint.h:108-115). -/
def StackVec.tryExtend (v : StackVec) (s : Span) : M (Bool × StackVec) :=
  if v.length + s.length ≤ v.data.length then do
    let v ← v.extendUnchecked s
    pure (true, v)
  else pure (false, v)

/-- `std::fill(d + i, d + i + n, x)`. -/
def fill (x : Nat) : Nat → Nat → Cells → M Cells
  | 0, _, d => .ok d
  | n + 1, i, d => do
    let d ← writeCell d i x
    fill x n (i + 1) d

/-- `stackvec::resize_unchecked` (bigint.h:120-131). -/
def StackVec.resizeUnchecked (v : StackVec) (newLen x : Nat) : M StackVec :=
  if newLen > v.length then do
    let d ← fill x (newLen - v.length) v.length v.data
    pure (StackVec.setLen ⟨d, v.length⟩ newLen)
  else pure (v.setLen newLen)

/-- `stackvec::try_resize` (bigint.h:134-141). -/
def StackVec.tryResize (v : StackVec) (newLen x : Nat) : M (Bool × StackVec) :=
  if newLen > v.data.length then pure (false, v)
  else do
    let v ← v.resizeUnchecked newLen x
    pure (true, v)

/-- The loop of `stackvec::nonzero` (bigint.h:146-154). -/
def nonzeroLoop (v : StackVec) : Nat → Nat → M Bool
  | 0, _ => .error .fuel
  | fuel + 1, index =>
    if index < v.length then do
      let x ← v.rindex index
      if x ≠ 0 then pure true else nonzeroLoop v fuel (index + 1)
    else pure false

/-- `stackvec::nonzero` (bigint.h:146-154). -/
def StackVec.nonzero (v : StackVec) (index : Nat) : M Bool := nonzeroLoop v (v.length + 1) index

/-- The loop of `stackvec::normalize` (bigint.h:157-161). -/
def normalizeLoop : Nat → StackVec → M StackVec
  | 0, _ => .error .fuel
  | fuel + 1, v =>
    if v.length > 0 then do
      let x ← v.rindex 0
      if x = 0 then normalizeLoop fuel { v with length := v.length - 1 } else pure v
    else pure v

/-- `stackvec::normalize` (bigint.h:157-161). -/
def StackVec.normalize (v : StackVec) : M StackVec := normalizeLoop (v.length + 1) v

/-- The `while` loop of `small_add_from` (bigint.h:267-271): new vector and carry. -/
def smallAddLoop (c : Cfg) : Nat → StackVec → Nat → Nat → M (StackVec × Nat)
  | 0, _, _, _ => .error .fuel
  | fuel + 1, v, carry, index =>
    if carry ≠ 0 ∧ index < v.length then do
      let x ← v.get index
      let s := scalarAdd c x carry
      let v ← v.set index s.1
      smallAddLoop c fuel v (if s.2 then 1 else 0) (index + 1)
    else pure (v, carry)

/-- `small_add_from` (bigint.h:261-276). -/
def smallAddFrom (c : Cfg) (v : StackVec) (y start : Nat) : M (Bool × StackVec) := do
  let r ← smallAddLoop c (v.length + 1) v y start
  if r.2 ≠ 0 then r.1.tryPush r.2 else pure (true, r.1)

/-- The `for` loop of `small_mul` (bigint.h:289-292): new vector and carry; the length does not change in it. -/
def smallMulLoop (c : Cfg) (y : Nat) : Nat → StackVec → Nat → Nat → M (StackVec × Nat)
  | 0, _, _, _ => .error .fuel
  | fuel + 1, v, carry, index =>
    if index < v.length then do
      let x ← v.get index
      let s := scalarMul c x y carry
      let v ← v.set index s.1
      smallMulLoop c y fuel v s.2 (index + 1)
    else pure (v, carry)

/-- `small_mul` (bigint.h:286-297). -/
def smallMul (c : Cfg) (v : StackVec) (y : Nat) : M (Bool × StackVec) := do
  let r ← smallMulLoop c y (v.length + 1) v 0 0
  if r.2 ≠ 0 then r.1.tryPush r.2 else pure (true, r.1)

/-- The `for` loop of `large_add_from` (bigint.h:310-322). -/
def largeAddLoop (c : Cfg) (y : Span) (start : Nat) : Nat → StackVec → Bool → Nat → M (StackVec × Bool)
  | 0, _, _, _ => .error .fuel
  | fuel + 1, x, carry, index =>
    if index < y.length then do
      let xi ← x.get (index + start)
      let yi ← y.get index
      let s1 := scalarAdd c xi yi
      let s2 := if carry then scalarAdd c s1.1 1 else (s1.1, false)
      let x ← x.set (index + start) s2.1
      largeAddLoop c y start fuel x (s1.2 || s2.2) (index + 1)
    else pure (x, carry)

/-- `large_add_from` (bigint.h:301-329). -/
def largeAddFrom (c : Cfg) (x : StackVec) (y : Span) (start : Nat) : M (Bool × StackVec) := do
  let r ← if x.length < start ∨ y.length > x.length - start then x.tryResize (y.length + start) 0 else pure (true, x)
  if r.1 = false then pure r
  else do
    let s ← largeAddLoop c y start (y.length + 1) r.2 false 0
    if s.2 then smallAddFrom c s.1 1 (y.length + start) else pure (true, s.1)

/-- The `for` loop of `long_mul` (bigint.h:348-360). -/
def longMulLoop (c : Cfg) (size : Nat) (zs y : Span) : Nat → StackVec → Nat → M (Bool × StackVec)
  | 0, _, _ => .error .fuel
  | fuel + 1, x, index =>
    if index < y.length then do
      let yi ← y.get index
      if yi ≠ 0 then do
        let zi := (StackVec.fresh size).setLen 0
        let e ← zi.tryExtend zs
        if e.1 = false then pure (false, x)
        else do
          let m ← smallMul c e.2 yi
          if m.1 = false then pure (false, x)
          else do
            let r ← largeAddFrom c x m.2.span index
            if r.1 = false then pure (false, r.2) else longMulLoop c size zs y fuel r.2 (index + 1)
      else longMulLoop c size zs y fuel x (index + 1)
    else pure (true, x)

/-- `long_mul` (bigint.h:339-364).  The result of `try_extend` in the constructor of `z` is ignored (`FASTFLOAT_ASSERT`). -/
def longMul (c : Cfg) (x : StackVec) (y : Span) : M (Bool × StackVec) := do
  let z ← (StackVec.fresh x.data.length).tryExtend x.span
  let r ← if y.length ≠ 0 then do
      let y0 ← y.get 0
      let m ← smallMul c x y0
      if m.1 = false then pure m else longMulLoop c x.data.length z.2.span y (y.length + 1) m.2 1
    else pure (true, x)
  if r.1 = false then pure r
  else do
    let n ← r.2.normalize
    pure (true, n)

/-- `large_mul` (bigint.h:367-375). -/
def largeMul (c : Cfg) (x : StackVec) (y : Span) : M (Bool × StackVec) :=
  if y.length = 1 then do
    let y0 ← y.get 0
    smallMul c x y0
  else longMul c x y

/-- `bigint::bigint(uint64_t)` (bigint.h:445-453). -/
def bigOfU64 (c : Cfg) (value : Nat) : M StackVec := do
  let v := StackVec.fresh (bigintLimbs c)
  let v ← if c.limb64 then v.pushUnchecked (value % 2 ^ 64)
    else do
      let v ← v.pushUnchecked (value % 2 ^ 32)
      v.pushUnchecked (value / 2 ^ 32 % 2 ^ 32)
  v.normalize

/-- `bigint::hi64` (bigint.h:457-482). -/
def hi64 (c : Cfg) (v : StackVec) : M Hi :=
  if c.limb64 then
    if v.length = 0 then .ok (0, false)
    else if v.length = 1 then do
      let r0 ← v.rindex 0
      lift (uint64Hi64One c r0)
    else do
      let r0 ← v.rindex 0
      let r1 ← v.rindex 1
      let h ← lift (uint64Hi64Two c r0 r1)
      let t ← v.nonzero 2
      pure (h.1, h.2 || t)
  else
    if v.length = 0 then .ok (0, false)
    else if v.length = 1 then do
      let r0 ← v.rindex 0
      lift (uint64Hi64One c r0)
    else if v.length = 2 then do
      let r0 ← v.rindex 0
      let r1 ← v.rindex 1
      lift (uint32Hi64Two c r0 r1)
    else do
      let r0 ← v.rindex 0
      let r1 ← v.rindex 1
      let r2 ← v.rindex 2
      let h ← lift (uint32Hi64Three c r0 r1 r2)
      let t ← v.nonzero 3
      pure (h.1, h.2 || t)

/-- The `for` loop of `compare` (bigint.h:496-505), counting down. -/
def compareLoop (x y : StackVec) : Nat → M Int
  | 0 => .ok 0
  | index + 1 => do
    let xi ← x.get index
    let yi ← y.get index
    if xi > yi then pure 1 else if xi < yi then pure (-1) else compareLoop x y index

/-- `bigint::compare` (bigint.h:490-507). -/
def compare (x y : StackVec) : M Int :=
  if x.length > y.length then .ok 1
  else if x.length < y.length then .ok (-1)
  else compareLoop x y x.length

/-- The `for` loop of `shl_bits` (bigint.h:523-527): new vector and `prev`. -/
def shlBitsLoop (lb n : Nat) : Nat → StackVec → Nat → Nat → M (StackVec × Nat)
  | 0, _, _, _ => .error .fuel
  | fuel + 1, v, prev, index =>
    if index < v.length then do
      let xi ← v.get index
      let v ← v.set index ((xi * 2 ^ n % 2 ^ lb) ||| (prev / 2 ^ (lb - n)))
      shlBitsLoop lb n fuel v xi (index + 1)
    else pure (v, prev)

/-- `bigint::shl_bits` (bigint.h:511-534). -/
def shlBits (c : Cfg) (v : StackVec) (n : Nat) : M (Bool × StackVec) :=
  if n = 0 ∨ n ≥ limbBits c then .error .assertion
  else do
    let r ← shlBitsLoop (limbBits c) n (v.length + 1) v 0 0
    let carry := r.2 / 2 ^ (limbBits c - n)
    if carry ≠ 0 then r.1.tryPush carry else pure (true, r.1)

/-- `std::copy_backward(d, d + k, d + k + n)`: the last cell first. -/
def copyBackward (n : Nat) : Nat → Cells → M Cells
  | 0, d => .ok d
  | k + 1, d => do
    let x ← readCell d k
    let d ← writeCell d (k + n) x
    copyBackward n k d

/-- `bigint::shl_limbs` (bigint.h:537-555). -/
def shlLimbs (v : StackVec) (n : Nat) : M (Bool × StackVec) :=
  if n = 0 then .error .assertion
  else if n + v.length > v.data.length then pure (false, v)
  else if v.length ≠ 0 then do
    let d ← copyBackward n v.length v.data
    let d ← fill 0 n 0 d
    pure (true, StackVec.setLen ⟨d, v.length⟩ (n + v.length))
  else pure (true, v)

/-- `bigint::shl` (bigint.h:558-568), also `bigint::pow2` (bigint.h:596). -/
def shl (c : Cfg) (v : StackVec) (n : Nat) : M (Bool × StackVec) := do
  let rem := n % limbBits c
  let div := n / limbBits c
  let r ← if rem ≠ 0 then shlBits c v rem else pure (true, v)
  if r.1 = false then pure r
  else if div ≠ 0 then shlLimbs r.2 div else pure r

/-- `bigint::ctlz` (bigint.h:571-583). -/
def ctlz (c : Cfg) (v : StackVec) : M Nat :=
  if v.length = 0 then .ok 0
  else do
    let r0 ← v.rindex 0
    if c.limb64 then lift (leadingZeroes c r0) else lift (leadingZeroes c (r0 * 2 ^ 32 % 2 ^ 64))

/-- `bigint::bit_length` (bigint.h:586-589). -/
def bitLength (c : Cfg) (v : StackVec) : M Int := do
  let lz ← ctlz c v
  pure (((limbBits c * v.length : Nat) : Int) - lz)

/-- The span over a constant table (bigint.h:601-602). -/
def tableSpan (t : List Nat) : Span := ⟨t.map some, t.length⟩

/-- `while (exp >= large_step)` of `pow5` (bigint.h:603-606). -/
def pow5Large (c : Cfg) : Nat → StackVec → Nat → M (Bool × StackVec × Nat)
  | 0, _, _ => .error .fuel
  | fuel + 1, v, exp =>
    if exp ≥ largeStep then do
      let r ← largeMul c v (tableSpan (largePowerOf5 c))
      if r.1 = false then pure (false, r.2, exp) else pow5Large c fuel r.2 (exp - largeStep)
    else pure (true, v, exp)

/-- `while (exp >= small_step)` of `pow5` (bigint.h:614-617). -/
def pow5Small (c : Cfg) : Nat → StackVec → Nat → M (Bool × StackVec × Nat)
  | 0, _, _ => .error .fuel
  | fuel + 1, v, exp =>
    if exp ≥ smallStep c then do
      let r ← smallMul c v (maxNative c)
      if r.1 = false then pure (false, r.2, exp) else pow5Small c fuel r.2 (exp - smallStep c)
    else pure (true, v, exp)

/-- `bigint::pow5` (bigint.h:599-627). -/
def pow5 (c : Cfg) (v : StackVec) (exp : Nat) : M (Bool × StackVec) := do
  let r ← pow5Large c (exp + 1) v exp
  if r.1 = false then pure (false, r.2.1)
  else do
    let s ← pow5Small c (r.2.2 + 1) r.2.1 r.2.2
    if s.1 = false then pure (false, s.2.1)
    else if s.2.2 ≠ 0 then do
      let y ← lift (tableGet smallPowerOf5 s.2.2)
      smallMul c s.2.1 (y % 2 ^ limbBits c)
    else pure (true, s.2.1)

/-- `bigint::pow10` (bigint.h:630-633). -/
def pow10 (c : Cfg) (v : StackVec) (exp : Nat) : M (Bool × StackVec) := do
  let r ← pow5 c v exp
  if r.1 = false then pure r else shl c r.2 exp

end Mem
end FastFloat
