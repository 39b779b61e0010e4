import Mathlib.Data.Rat.Defs
import Mathlib.Algebra.Order.Field.Rat
import Mathlib.Algebra.Order.Field.Power

/-!
# Specification of floating point rounding
-/

namespace CostMapModel

/-- A number with at most `p` significant bits. -/
def Representable (p : Nat) (x : ℚ) : Prop := ∃ m e : Int, |m| < 2 ^ p ∧ x = m * (2 : ℚ) ^ e

/-- `y` is a number of `p` significant bits nearest to `x`. -/
def Nearest (p : Nat) (x y : ℚ) : Prop := Representable p y ∧ ∀ z, Representable p z → |x - y| ≤ |x - z|

end CostMapModel
