import Verif.Spec.RoundedConversions
import Verif.Spec.Costmap2D
import Verif.Spec.MachineSpiral

/-!
# Specification vocabulary: ROS costmaps in floating point
-/

namespace CostMapModel
variable {K : Type} [Field K] [LinearOrder K] [FloorRing K]

/-- Multiples of `u` of up to 53 bits are not changed by rounding, as for `double` when `u` is a power of two. -/
def GridExact (rd : K → K) (u : K) : Prop := ∀ z : Int, |z| < 2 ^ 53 → rd (z * u) = z * u

namespace Costmap2D

/-- The cost of the cell in column `col` and row `row`, counted from the lower left corner. -/
def cell (c : Costmap2D K) (col row : Nat) : Option Cost := if col < c.sizeX ∧ row < c.sizeY then c.costs[row * c.sizeX + col]? else none

/-- The centre of that cell, computed exactly. -/
def cellCentre (c : Costmap2D K) (col row : Nat) : Vec K :=
  ⟨c.origin.x + ((col : K) + 1 / 2) * c.resolution, c.origin.y + ((row : K) + 1 / 2) * c.resolution⟩

/-- The tolerance for rounding errors on an axis of `n` cells of size `r` that begins at `o`. -/
def axisTol (n : Nat) (o r : K) : K := (|o| + 2 * ((n : K) + 1) * r) / 2 ^ 47

/-- The coordinates of the costmap are less than `2^45` cells from the origin of the frame. -/
structure Tame (c : Costmap2D K) : Prop where
  x : |c.origin.x| + 2 * ((c.sizeX : K) + 1) * c.resolution ≤ 2 ^ 45 * c.resolution
  y : |c.origin.y| + 2 * ((c.sizeY : K) + 1) * c.resolution ≤ 2 ^ 45 * c.resolution

/-- The lower left corner and half the resolution are multiples of `u`: the resolution is `2 a u` and the corner `b u`. The numbers
that count these multiples stay below `2^49`. (With `u` a power of two, for example, a resolution of 1/20 is not on any grid and one of
1/16 is.) -/
structure OnGrid (c : Costmap2D K) (u : K) (a : Nat) (b : Idx) : Prop where
  unit_pos : 0 < u
  res : c.resolution = 2 * a * u
  origin_x : c.origin.x = b.x * u
  origin_y : c.origin.y = b.y * u
  bound_x : |b.x| + 2 * (a * (c.sizeX + 1)) < 2 ^ 49
  bound_y : |b.y| + 2 * (a * (c.sizeY + 1)) < 2 ^ 49

end Costmap2D
end CostMapModel
