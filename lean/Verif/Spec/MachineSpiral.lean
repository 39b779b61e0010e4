import Verif.Spec.Rounded

/-!
# Specification vocabulary for the spiral iterator on the machine
-/

namespace CostMapModel
variable {K : Type} [Field K] [LinearOrder K]

/-- Whole numbers of up to 53 bits are not changed by rounding. -/
def IntsExact (rd : K → K) : Prop := ∀ z : Int, |z| < 2 ^ 53 → rd (z : K) = z

/-- `sqrt`, applied to whole numbers, is the square root rounded to a `double`: the relative error is small, and rounding does not
cross a whole number. -/
def SqrtInts (sqrt : K → K) : Prop := ∀ n : Nat, n ≤ 2 ^ 52 →
  (sqrt (n : K)) ^ 2 ≤ n + n / 2 ^ 51 ∧ ∀ k : Nat, k * k ≤ n → (k : K) ≤ sqrt (n : K)

namespace CostMap

/-- The square around `center` that reaches `rho` in each direction lies in the map. -/
structure RoomFor (m : CostMap K) (center : Vec K) (rho : K) : Prop where
  x : |center.x - m.position.x| + rho ≤ m.length.x / 2
  y : |center.y - m.position.y| + rho ≤ m.length.y / 2

/-- The radius is not a whole number of cells, and not within the tolerance of one either. -/
def ClearOfCells (m : CostMap K) (radius : K) : Prop :=
  ∀ k : Nat, k * m.resolution + 4 * (m.tolX + m.tolY) ≤ radius ∨ radius + 4 * (m.tolX + m.tolY) ≤ k * m.resolution

end CostMap
end CostMapModel
