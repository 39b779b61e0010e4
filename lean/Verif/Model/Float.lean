import Mathlib.Data.Rat.Defs
import Mathlib.Algebra.Order.Field.Rat

/-!
# IEEE 754 rounding

The conversions between costs and pixels, occupancy values and grid map values compute with `float` and `double`
(converter.cpp 119, 141, 291-295, image_bundles.cpp 172). The operands are small, so neither overflow nor underflow
occurs: an operation is the exact operation on rationals followed by rounding to a number of significant bits, to the
nearest such number and to an even significand when two are equally near (the default rounding mode).
-/

namespace CostMapModel

/-- The integer nearest to `a / b`, the even one if there are two. -/
def roundEven (a b : Nat) : Nat :=
  let q := a / b
  let r := a % b
  if 2 * r < b then q else if b < 2 * r then q + 1 else if q % 2 = 0 then q else q + 1

/-- The exponent `e` with `2^e ≤ n/d < 2^(e+1)`. -/
def binExponent (n d : Nat) : Int :=
  let l : Int := (Nat.log2 n : Int) - Nat.log2 d
  if (if 0 ≤ l then d * 2 ^ l.toNat ≤ n else d ≤ n * 2 ^ (-l).toNat) then l else l - 1

/-- Rounding of a rational to `p` significant bits. -/
def binRound (p : Nat) (x : ℚ) : ℚ :=
  if x = 0 then 0 else
  let n := x.num.natAbs
  let k : Int := (p : Int) - 1 - binExponent n x.den
  let y : ℚ :=
    if 0 ≤ k then (roundEven (n * 2 ^ k.toNat) x.den : ℚ) / ((2 ^ k.toNat : Nat) : ℚ)
    else (roundEven n (x.den * 2 ^ (-k).toNat) : ℚ) * ((2 ^ (-k).toNat : Nat) : ℚ)
  if x < 0 then -y else y

/-- Rounding to `float`: 24 significant bits. -/
def toFloat (x : ℚ) : ℚ := binRound 24 x

/-- Rounding to `double`: 53 significant bits. -/
def toDouble (x : ℚ) : ℚ := binRound 53 x

end CostMapModel
