import Verif.Model.FloatCommon
/-
# The generators of random numerals: tests/random_string.cpp and tests/short_random_string.cpp

The state of the engine is threaded through; the words come from a source `rng`, which gives a word and the next state (`wyNext` is the one of the code).  The buffer is the list of the
characters written so far (`pos` is its length); a write at or behind the end of the buffer is `outOfBounds`.  The `while` loops have a bound `fuel` on their rounds.
-/
set_option autoImplicit false
namespace FastFloat
namespace Client

/-- A source of 64-bit words: the word and the next state. -/
abbrev Rng := Nat → Nat × Nat

/-- `RandomEngine::next` (random_string.cpp:59-70, short_random_string.cpp:59-70). -/
def wyNext (c : Cfg) : Rng := fun x =>
  let x := (x + 0x60bee2bee120fc15) % 2 ^ 64
  let tmp := fullMultiplication c x 0xa3b195354a39b70d
  let m1 := tmp.high ^^^ tmp.low
  let tmp := fullMultiplication c m1 0x1b03738712fad5c9
  (tmp.high ^^^ tmp.low, x)

/-- `RandomEngine::next_bool` (random_string.cpp:72, short_random_string.cpp:72). -/
def nextBool (rng : Rng) (x : Nat) : Bool × Nat := ((rng x).1 &&& 1 == 1, (rng x).2)

/-- The loop of `next_ranged_int` (random_string.cpp:92-96). -/
def rangedLoop (c : Cfg) (rng : Rng) (s t : Nat) : Nat → Nat → Value128 → Exec (Value128 × Nat)
  | 0, _, _ => .error .fuel
  | fuel + 1, x, m => if m.low < t then rangedLoop c rng s t fuel (rng x).2 (fullMultiplication c (rng x).1 s) else .ok (m, x)

/-- `int(v)` for a `uint64_t`. -/
def toInt32 (v : Nat) : Int := if v % 2 ^ 32 < 2 ^ 31 then ((v % 2 ^ 32 : Nat) : Int) else ((v % 2 ^ 32 : Nat) : Int) - 2 ^ 32

/-- `RandomEngine::next_ranged_int` (random_string.cpp:80-99, short_random_string.cpp:80-99).  Not modelled: `max < min` (`-s % s` would divide by zero). -/
def nextRangedInt (c : Cfg) (rng : Rng) (fuel : Nat) (min max : Int) (x : Nat) : Exec (Int × Nat) := do
  let d ← chk32 (max - min)
  let d ← chk32 (d + 1)
  let s := (d % 2 ^ 64).toNat
  let m := fullMultiplication c (rng x).1 s
  if m.low < s then do
    let t := (2 ^ 64 - s) % 2 ^ 64 % s
    let r ← rangedLoop c rng s t fuel (rng x).2 m
    let v ← chk32 (toInt32 r.1.high + min)
    pure (v, r.2)
  else do
    let v ← chk32 (toInt32 m.high + min)
    pure (v, (rng x).2)

/-- `char(rand.next_digit() + '0')` (random_string.cpp:101, 123, 127, 146). -/
def nextDigitChar (c : Cfg) (rng : Rng) (fuel : Nat) (x : Nat) : Exec (Nat × Nat) := do
  let r ← nextRangedInt c rng fuel 0 9 x
  pure ((r.1 + 48).toNat, r.2)

/-- `buffer[pos++] = ch`. -/
def put (cap : Nat) (buf : List Nat) (ch : Nat) : Exec (List Nat) := if buf.length < cap then .ok (buf ++ [ch]) else .error .outOfBounds

/-- `if (b) buffer[pos++] = ch;`. -/
def putIf (b : Bool) (cap : Nat) (buf : List Nat) (ch : Nat) : Exec (List Nat) := if b then put cap buf ch else .ok buf

/-- The loop that draws the first digit again (random_string.cpp:125-128): `ch` is `buffer[pos]`. -/
def redraw (c : Cfg) (rng : Rng) (inner : Nat) (again : Bool) : Nat → Nat → Nat → Exec (Nat × Nat)
  | 0, _, _ => .error .fuel
  | fuel + 1, ch, x =>
    if again && ch == 48 then do
      let r ← nextDigitChar c rng inner x
      redraw c rng inner again fuel r.1 r.2
    else .ok (ch, x)

/-- The loop over the digits (random_string.cpp:119-130), with `todo` rounds to go. -/
def digitsLoop (c : Cfg) (rng : Rng) (fuel cap loc : Nat) : Nat → Nat → Nat → List Nat → Exec (List Nat × Nat)
  | 0, _, x, buf => .ok (buf, x)
  | todo + 1, i, x, buf => do
    let buf ← putIf (i == loc) cap buf 46
    let r ← nextDigitChar c rng fuel x
    let r ← redraw c rng fuel (i == 0 && 1 != loc) fuel r.1 r.2
    let buf ← put cap buf r.1
    digitsLoop c rng fuel cap loc todo (i + 1) r.2 buf

/-- The loop over the digits of the exponent (random_string.cpp:145-147). -/
def expLoop (c : Cfg) (rng : Rng) (fuel cap : Nat) : Nat → Nat → List Nat → Exec (List Nat × Nat)
  | 0, x, buf => .ok (buf, x)
  | todo + 1, x, buf => do
    let r ← nextDigitChar c rng fuel x
    let buf ← put cap buf r.1
    expLoop c rng fuel cap todo r.2 buf

/-- The sign of the exponent (random_string.cpp:137-143). -/
def expSign (rng : Rng) (cap : Nat) (x : Nat) (buf : List Nat) : Exec (List Nat × Nat) :=
  if (nextBool rng x).1 then do
    let buf ← put cap buf 45
    pure (buf, (nextBool rng x).2)
  else do
    let y := (nextBool rng x).2
    let buf ← putIf (nextBool rng y).1 cap buf 43
    pure (buf, (nextBool rng y).2)

/-- The exponent part (random_string.cpp:131-148). -/
def expPart (c : Cfg) (rng : Rng) (fuel cap : Nat) (x : Nat) (buf : List Nat) : Exec (List Nat × Nat) :=
  if (nextBool rng x).1 then do
    let y := (nextBool rng x).2
    let buf ← put cap buf (if (nextBool rng y).1 then 101 else 69)
    let r ← expSign rng cap (nextBool rng y).2 buf
    let n ← nextRangedInt c rng fuel 1 3 r.2
    expLoop c rng fuel cap n.1.toNat n.2 r.1
  else .ok (buf, (nextBool rng x).2)

/-- The number of digits (random_string.cpp:112-117; short_random_string.cpp:112 with `short`). -/
def numberOfDigits (c : Cfg) (rng : Rng) (fuel : Nat) (short : Bool) (x : Nat) : Exec (Int × Nat) :=
  if short then nextRangedInt c rng fuel 1 19 x
  else do
    let r ← nextRangedInt c rng fuel 1 100 x
    if r.1 = 100 then nextRangedInt c rng fuel 1 2000 r.2 else pure r

/-- `build_random_string` (random_string.cpp:107-151; short_random_string.cpp:107-146 with `short`): the text in the buffer of `cap` characters (its length is what is returned) and the
state of the engine. -/
def buildRandomString (c : Cfg) (rng : Rng) (fuel cap : Nat) (short : Bool) (x : Nat) : Exec (List Nat × Nat) := do
  let buf ← putIf (nextBool rng x).1 cap [] 45
  let n ← numberOfDigits c rng fuel short (nextBool rng x).2
  let loc ← nextRangedInt c rng fuel 1 n.1 n.2
  let r ← digitsLoop c rng fuel cap loc.1.toNat n.1.toNat 0 loc.2 buf
  let r ← expPart c rng fuel cap r.2 r.1
  let _ ← put cap r.1 0
  pure r

end Client
end FastFloat
