import Verif.Model.Basic
/-
# The scripts of the repository that stand behind the power table

script/table_generation.py prints fast_table.h; script/mushtak_lemire.py and script/analysis.py check the facts about the table on which the error analysis
of `compute_float` rests.  Python integers are unbounded; all the numbers of the scripts are non-negative (except `q`), so they are `Nat`.
A `while` loop has a bound on its rounds here; running out of it is the error `.fuel`, and the theorems show that it does not happen.
-/
set_option autoImplicit false
namespace FastFloat.Script

/-- `while cond(x): x = body(x)`, with a bound on the rounds. -/
def while_ {σ : Type} (cond : σ → Bool) (body : σ → σ) : Nat → σ → Exec σ
  | 0, _ => .error .fuel
  | fuel + 1, x => if cond x then while_ cond body fuel (body x) else .ok x

/-- A bound on the rounds of every `while` of the scripts. -/
def rounds : Nat := 2000

/-- `range(a, b)`. -/
def range (a b : Int) : List Int := (List.range (b - a).toNat).map fun (i : Nat) => a + (i : Int)

/-- `z = 0; while (1 << z) < x: z += 1` (table_generation.py:9-11, mushtak_lemire.py:13-15, 23-25, `log2` of analysis.py:5-10). -/
def log2 (x : Nat) : Exec Nat := while_ (fun z => decide (2 ^ z < x)) (· + 1) rounds 0

/-- `format(number)` (table_generation.py:1-4): the two numbers on the line printed (the hexadecimal digits are not modelled). -/
def format (number : Nat) : List Nat := [number / 2 ^ 64, number % 2 ^ 64]

/-- `while c >= (1 << 128): c //= 2` (table_generation.py:20-21, 30-31; mushtak_lemire.py:18-19, 33-34). -/
def truncate (x : Nat) : Exec Nat := while_ (fun c => decide (c ≥ 2 ^ 128)) (· / 2) rounds x

/-- `while power5 < (1 << 127): power5 *= 2` (table_generation.py:27-28, mushtak_lemire.py:31-32). -/
def normalize (x : Nat) : Exec Nat := while_ (fun p => decide (p < 2 ^ 127)) (· * 2) rounds x

/-- The entry for a negative exponent `q` (table_generation.py:8-22; mushtak_lemire.py:12-20, where `q < -27`, and 22-28, where `q >= -27`). -/
def negativeEntry (q : Int) : Exec Nat := do
  let power5 := 5 ^ (-q).toNat
  let z ← log2 power5
  if q ≥ -27 then do
    let b := z + 127
    pure (2 ^ b / power5 + 1)
  else do
    let b := 2 * z + 2 * 64
    let c := 2 ^ b / power5 + 1
    truncate c

/-- The entry for an exponent `q >= 0` (table_generation.py:25-32; mushtak_lemire.py:30-35). -/
def positiveEntry (q : Int) : Exec Nat := do
  let p ← normalize (5 ^ q.toNat)
  truncate p

/-- table_generation.py (lines 7-32): everything it prints. -/
def tableGeneration : Exec (List Nat) := do
  let a ← (range (-342) 0).mapM negativeEntry
  let b ← (range 0 (308 + 1)).mapM positiveEntry
  pure ((a ++ b).flatMap format)

/-- `all_tqs` (mushtak_lemire.py:6-35). -/
def allTqs : Exec (List Nat) := do
  let a ← (range (-342) (-27)).mapM negativeEntry
  let b ← (range (-27) 0).mapM negativeEntry
  let c ← (range 0 (308 + 1)).mapM positiveEntry
  pure (a ++ b ++ c)

/-- `continued_fraction(numer, denom)` (mushtak_lemire.py:38-45). -/
def continuedFraction : Nat → Nat → Nat → Exec (List Nat)
  | 0, _, _ => .error .fuel
  | fuel + 1, numer, denom =>
    if denom ≠ 0 then do
      let cf ← continuedFraction fuel denom (numer % denom)
      pure (numer / denom :: cf)
    else .ok []

/-- The loop of `convergents(cf)` (mushtak_lemire.py:58-67). -/
def convergentsFrom (p2 q2 p1 q1 : Nat) : List Nat → List (Nat × Nat)
  | [] => []
  | a :: cf =>
    let p := a * p1 + p2
    let q := a * q1 + q2
    (p, q) :: convergentsFrom p1 q1 p q cf

/-- `convergents(cf)` (mushtak_lemire.py:52-68). -/
def convergents (cf : List Nat) : List (Nat × Nat) := convergentsFrom 0 1 1 0 cf

/-- The inner loop (mushtak_lemire.py:74-79): the solutions `w` it prints for `tq`. -/
def solutions (tq : Nat) : List (Nat × Nat) → List Nat
  | [] => []
  | (_, w) :: cs =>
    if w ≥ 2 ^ 64 then []
    else if tq * w % 2 ^ 137 > 2 ^ 137 - 2 ^ 64 then w :: solutions tq cs
    else solutions tq cs

/-- One round of the outer loop (mushtak_lemire.py:73-79). -/
def solutionsOf (tq : Nat) : Exec (List Nat) := do
  let cf ← continuedFraction rounds tq (2 ^ 137)
  pure (solutions tq (convergents cf))

/-- mushtak_lemire.py (lines 71-81): all the solutions it prints; none means that it prints "No solutions!". -/
def mushtakLemire : Exec (List Nat) := do
  let ts ← allTqs
  let s ← ts.mapM solutionsOf
  pure s.flatten

/-- A round of the first loop of analysis.py (lines 14-24): `true` if neither an `assert` fails nor the script exits. -/
def smallCheck (q : Nat) : Exec Bool := do
  let d := 5 ^ q
  let z ← log2 d
  let t := 2 ^ (127 + z)
  let c := t / d + 1
  let K := 2 ^ 127
  pure (decide (c < 2 ^ 128) && decide (c ≥ 2 ^ 127) && decide (c * K * d ≤ (K + 1) * t))

/-- A round of the second loop of analysis.py (lines 27-36). -/
def largeCheck (q : Nat) : Exec Bool := do
  let d := 5 ^ q
  let z ← log2 d
  let t := 2 ^ (64 + 2 * z)
  let c := t / d + 1
  let K := 2 ^ 64
  pure (decide (c > 2 ^ (64 + z)) && decide (c * K * d ≤ (K + 1) * t))

/-- analysis.py (lines 13-38): `true` if it prints "all good". -/
def analysis : Exec Bool := do
  let a ← (range 1 (17 + 1)).mapM fun q => smallCheck q.toNat
  let b ← (range 18 (344 + 1)).mapM fun q => largeCheck q.toNat
  pure (a.all id && b.all id)

end FastFloat.Script
