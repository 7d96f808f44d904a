import Verif.Model.FloatCommon
/-
# bigint.h

A `stackvec` is the list of its limbs in little-endian order (`data[0..length)`).  Limbs are numbers `< 2^limb_bits`.
A failed `try_push`/`try_extend`/`try_resize` is `throw .capacity` (the C++ code returns `false` and its callers in
digit_comparison.h ignore that).
-/
namespace FastFloat

/-- `limb_bits` (bigint.h:19-27). -/
def limbBits (c : Cfg) : Nat := if c.limb64 then 64 else 32
/-- `bigint_limbs = 4000 / limb_bits` (bigint.h:35-36). -/
def bigintLimbs (c : Cfg) : Nat := 4000 / limbBits c

/-- A `stackvec<bigint_limbs>` (bigint.h:40-162). -/
abbrev Limbs := List Nat

/-- `stackvec::try_push` (bigint.h:91-98). -/
def tryPush (c : Cfg) (v : Limbs) (x : Nat) : Exec Limbs :=
  if v.length < bigintLimbs c then .ok (v ++ [x]) else .error .capacity

/-- `stackvec::rindex` (bigint.h:67-71): undefined outside the vector. -/
def rindex (v : Limbs) (i : Nat) : Exec Nat :=
  if i < v.length then tableGet v (v.length - i - 1) else .error .outOfBounds

/-- `stackvec::nonzero` (bigint.h:146-154): any nonzero limb at reverse index `>= index`, i.e. below position `len - index`. -/
def nonzeroFrom (v : Limbs) (index : Nat) : Bool := (v.take (v.length - index)).any (· != 0)

/-- `stackvec::normalize` (bigint.h:157-161) on the reversed vector: drop leading zeros. -/
def dropZeros : Limbs → Limbs
  | [] => []
  | x :: xs => if x = 0 then dropZeros xs else x :: xs

/-- `stackvec::normalize` (bigint.h:157-161). -/
def normalize (v : Limbs) : Limbs := (dropZeros v.reverse).reverse

/-- A result of the `hi64` helpers: word and `truncated`. -/
abbrev Hi := Nat × Bool

/-- `uint64_hi64(r0)` (bigint.h:170-175). -/
def uint64Hi64One (c : Cfg) (r0 : Nat) : Exec Hi := do
  let shl ← leadingZeroes c r0
  let r ← shl64 r0 shl
  pure (r, false)

/-- `uint64_hi64(r0, r1)` (bigint.h:177-188). -/
def uint64Hi64Two (c : Cfg) (r0 r1 : Nat) : Exec Hi := do
  let shl ← leadingZeroes c r0
  if shl = 0 then pure (r0, r1 != 0)
  else do
    let shr := 64 - shl
    let t ← shl64 r1 shl
    let a ← shl64 r0 shl
    let b ← shr64 r1 shr
    pure (a ||| b, t != 0)

/-- `uint32_hi64(r0, r1)` (bigint.h:195-200). -/
def uint32Hi64Two (c : Cfg) (r0 r1 : Nat) : Exec Hi := uint64Hi64One c (r0 * 2 ^ 32 % 2 ^ 64 ||| r1)

/-- `uint32_hi64(r0, r1, r2)` (bigint.h:202-208). -/
def uint32Hi64Three (c : Cfg) (r0 r1 r2 : Nat) : Exec Hi := uint64Hi64Two c r0 (r1 * 2 ^ 32 % 2 ^ 64 ||| r2)

/-- `scalar_add` (bigint.h:214-231): sum and overflow flag. -/
def scalarAdd (c : Cfg) (x y : Nat) : Nat × Bool :=
  if c.builtinAdd && !c.constEval then ((x + y) % 2 ^ limbBits c, decide (x + y ≥ 2 ^ limbBits c))
  else
    let z := (x + y) % 2 ^ limbBits c
    (z, decide (z < x))

/-- `scalar_mul` (bigint.h:234-257): low word and new carry. -/
def scalarMul (c : Cfg) (x y carry : Nat) : Nat × Nat :=
  if c.limb64 then
    if c.int128 then
      let z := (x * y + carry) % 2 ^ 128
      (z % 2 ^ 64, z / 2 ^ 64 % 2 ^ 64)
    else
      let z := fullMultiplication c x y
      let s := scalarAdd c z.low carry
      (s.1, (z.high + (if s.2 then 1 else 0)) % 2 ^ 64)
  else
    let z := (x * y + carry) % 2 ^ 64
    (z % 2 ^ 32, z / 2 ^ 32 % 2 ^ 32)

/-- The loop of `small_add_from` (bigint.h:267-271) on the limbs from `start` on: new limbs and final carry. -/
def addCarryLoop (c : Cfg) : Limbs → Nat → Limbs × Nat
  | [], carry => ([], carry)
  | x :: xs, carry =>
    if carry = 0 then (x :: xs, 0)
    else
      let s := scalarAdd c x carry
      let r := addCarryLoop c xs (if s.2 then 1 else 0)
      (s.1 :: r.1, r.2)

/-- `small_add_from` (bigint.h:261-276). -/
def smallAddFrom (c : Cfg) (v : Limbs) (y start : Nat) : Exec Limbs :=
  let r := addCarryLoop c (v.drop start) y
  let v' := v.take start ++ r.1
  if r.2 ≠ 0 then tryPush c v' r.2 else .ok v'

/-- The loop of `small_mul` (bigint.h:289-292). -/
def mulLoop (c : Cfg) (y : Nat) : Limbs → Nat → Limbs × Nat
  | [], carry => ([], carry)
  | x :: xs, carry =>
    let s := scalarMul c x y carry
    let r := mulLoop c y xs s.2
    (s.1 :: r.1, r.2)

/-- `small_mul` (bigint.h:286-297). -/
def smallMul (c : Cfg) (v : Limbs) (y : Nat) : Exec Limbs :=
  let r := mulLoop c y v 0
  if r.2 ≠ 0 then tryPush c r.1 r.2 else .ok r.1

/-- The loop of `large_add_from` (bigint.h:310-322) on the limbs from `start` on; the vector has been resized, so it is never
shorter than `y` (running off its end is out of bounds). -/
def largeAddLoop (c : Cfg) : Limbs → Limbs → Bool → Exec (Limbs × Bool)
  | xs, [], carry => .ok (xs, carry)
  | [], _ :: _, _ => .error .outOfBounds
  | x :: xs, y :: ys, carry => do
    let s1 := scalarAdd c x y
    let s2 := if carry then scalarAdd c s1.1 1 else (s1.1, false)
    let r ← largeAddLoop c xs ys (s1.2 || s2.2)
    pure (s2.1 :: r.1, r.2)

/-- `large_add_from` (bigint.h:301-329). -/
def largeAddFrom (c : Cfg) (x y : Limbs) (start : Nat) : Exec Limbs := do
  let x ← if x.length < start ∨ y.length > x.length - start then
      (if y.length + start > bigintLimbs c then (.error .capacity : Exec Limbs)
       else .ok (x ++ List.replicate (y.length + start - x.length) 0))
    else pure x
  let r ← largeAddLoop c (x.drop start) y false
  let x' := x.take start ++ r.1
  if r.2 then smallAddFrom c x' 1 (y.length + start) else pure x'

/-- The loop of `long_mul` (bigint.h:348-359) for the limbs `index, index+1, ...` of `y`. -/
def longMulLoop (c : Cfg) (z : Limbs) : Limbs → Nat → Limbs → Exec Limbs
  | [], _, x => .ok x
  | yi :: ys, index, x => do
    let x ← if yi ≠ 0 then do
        let zi ← smallMul c z yi
        largeAddFrom c x zi index
      else pure x
    longMulLoop c z ys (index + 1) x

/-- `long_mul` (bigint.h:339-364). -/
def longMul (c : Cfg) (x y : Limbs) : Exec Limbs :=
  match y with
  | [] => .ok (normalize x)
  | y0 :: ys => do
    let x' ← smallMul c x y0
    let r ← longMulLoop c x ys 1 x'
    pure (normalize r)

/-- `large_mul` (bigint.h:367-375). -/
def largeMul (c : Cfg) (x y : Limbs) : Exec Limbs :=
  match y with
  | [y0] => smallMul c x y0
  | _ => longMul c x y

/-- `pow5_tables::small_power_of_5` (bigint.h:379-408). -/
def smallPowerOf5 : List Nat := [
  1, 5, 25, 125, 625, 3125, 15625, 78125, 390625, 1953125, 9765625, 48828125, 244140625, 1220703125, 6103515625,
  30517578125, 152587890625, 762939453125, 3814697265625, 19073486328125, 95367431640625, 476837158203125,
  2384185791015625, 11920928955078125, 59604644775390625, 298023223876953125, 1490116119384765625,
  7450580596923828125]

/-- `pow5_tables::large_step` (bigint.h:378). -/
def largeStep : Nat := 135

/-- `pow5_tables::large_power_of_5` (bigint.h:409-417). -/
def largePowerOf5 (c : Cfg) : Limbs :=
  if c.limb64 then
    [1414648277510068013, 9180637584431281687, 4539964771860779200, 10482974169319127550, 198276706040285095]
  else
    [4279965485, 329373468, 4020270615, 2137533757, 4287402176, 1057042919, 1071430142, 2440757623, 381945767, 46164893]

/-- `bigint::bigint(uint64_t)` (bigint.h:445-453). -/
def bigOfU64 (c : Cfg) (value : Nat) : Limbs :=
  if c.limb64 then normalize [value % 2 ^ 64] else normalize [value % 2 ^ 32, value / 2 ^ 32 % 2 ^ 32]

/-- `bigint::hi64` (bigint.h:457-482). -/
def hi64 (c : Cfg) (v : Limbs) : Exec Hi :=
  if c.limb64 then
    if v.length = 0 then .ok (0, false)
    else if v.length = 1 then do
      let r0 ← rindex v 0
      uint64Hi64One c r0
    else do
      let r0 ← rindex v 0
      let r1 ← rindex v 1
      let h ← uint64Hi64Two c r0 r1
      pure (h.1, h.2 || nonzeroFrom v 2)
  else
    if v.length = 0 then .ok (0, false)
    else if v.length = 1 then do
      let r0 ← rindex v 0
      uint64Hi64One c r0
    else if v.length = 2 then do
      let r0 ← rindex v 0
      let r1 ← rindex v 1
      uint32Hi64Two c r0 r1
    else do
      let r0 ← rindex v 0
      let r1 ← rindex v 1
      let r2 ← rindex v 2
      let h ← uint32Hi64Three c r0 r1 r2
      pure (h.1, h.2 || nonzeroFrom v 3)

/-- Comparison from the most significant limb down (bigint.h:496-505), on the reversed vectors. -/
def compareLoop : Limbs → Limbs → Int
  | x :: xs, y :: ys => if x > y then 1 else if x < y then -1 else compareLoop xs ys
  | _, _ => 0

/-- `bigint::compare` (bigint.h:490-507). -/
def bigCompare (x y : Limbs) : Int :=
  if x.length > y.length then 1
  else if x.length < y.length then -1
  else compareLoop x.reverse y.reverse

/-- Loop of `shl_bits` (bigint.h:523-527): new limbs and last old limb. -/
def shlBitsLoop (lb n : Nat) : Limbs → Nat → Limbs × Nat
  | [], prev => ([], prev)
  | x :: xs, prev =>
    let r := shlBitsLoop lb n xs x
    (((x * 2 ^ n % 2 ^ lb) ||| (prev / 2 ^ (lb - n))) :: r.1, r.2)

/-- `bigint::shl_bits` (bigint.h:511-534).  A shift count of 0 or `>= limb_bits` would be undefined (`prev >> shr`). -/
def shlBits (c : Cfg) (v : Limbs) (n : Nat) : Exec Limbs :=
  if n = 0 ∨ n ≥ limbBits c then .error .shift
  else
    let r := shlBitsLoop (limbBits c) n v 0
    let carry := r.2 / 2 ^ (limbBits c - n)
    if carry ≠ 0 then tryPush c r.1 carry else .ok r.1

/-- `bigint::shl_limbs` (bigint.h:537-555). -/
def shlLimbs (c : Cfg) (v : Limbs) (n : Nat) : Exec Limbs :=
  if n + v.length > bigintLimbs c then .error .capacity
  else if v.length ≠ 0 then .ok (List.replicate n 0 ++ v)
  else .ok v

/-- `bigint::shl` (bigint.h:558-568). -/
def bigShl (c : Cfg) (v : Limbs) (n : Nat) : Exec Limbs := do
  let rem := n % limbBits c
  let div := n / limbBits c
  let v ← if rem ≠ 0 then shlBits c v rem else pure v
  if div ≠ 0 then shlLimbs c v div else pure v

/-- `bigint::ctlz` (bigint.h:571-583). -/
def ctlz (c : Cfg) (v : Limbs) : Exec Nat :=
  if v.length = 0 then .ok 0
  else do
    let r0 ← rindex v 0
    if c.limb64 then leadingZeroes c r0 else leadingZeroes c (r0 * 2 ^ 32 % 2 ^ 64)

/-- `bigint::bit_length` (bigint.h:586-589). -/
def bitLength (c : Cfg) (v : Limbs) : Exec Int := do
  let lz ← ctlz c v
  pure (((limbBits c * v.length : Nat) : Int) - lz)

/-- `while (exp >= large_step)` of `pow5` (bigint.h:603-606); `fuel` bounds the iterations. -/
def pow5Large (c : Cfg) : Nat → Limbs → Nat → Exec (Limbs × Nat)
  | 0, _, _ => .error .fuel
  | fuel + 1, v, exp =>
    if exp ≥ largeStep then do
      let v ← largeMul c v (largePowerOf5 c)
      pow5Large c fuel v (exp - largeStep)
    else .ok (v, exp)

/-- `small_step` and `max_native` of `pow5` (bigint.h:607-613). -/
def smallStep (c : Cfg) : Nat := if c.limb64 then 27 else 13
/-- `max_native` of `pow5` (bigint.h:607-613). -/
def maxNative (c : Cfg) : Nat := if c.limb64 then 7450580596923828125 else 1220703125

/-- `while (exp >= small_step)` of `pow5` (bigint.h:614-617). -/
def pow5Small (c : Cfg) : Nat → Limbs → Nat → Exec (Limbs × Nat)
  | 0, _, _ => .error .fuel
  | fuel + 1, v, exp =>
    if exp ≥ smallStep c then do
      let v ← smallMul c v (maxNative c)
      pow5Small c fuel v (exp - smallStep c)
    else .ok (v, exp)

/-- `bigint::pow5` (bigint.h:599-627).  `limb(small_power_of_5[exp])` truncates to a limb. -/
def bigPow5 (c : Cfg) (v : Limbs) (exp : Nat) : Exec Limbs := do
  let (v, exp) ← pow5Large c (exp + 1) v exp
  let (v, exp) ← pow5Small c (exp + 1) v exp
  if exp ≠ 0 then do
    let y ← tableGet smallPowerOf5 exp
    smallMul c v (y % 2 ^ limbBits c)
  else pure v

/-- `bigint::pow10` (bigint.h:630-633). -/
def bigPow10 (c : Cfg) (v : Limbs) (exp : Nat) : Exec Limbs := do
  let v ← bigPow5 c v exp
  bigShl c v exp

end FastFloat
