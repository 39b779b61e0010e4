import Verif.Spec.Rounded
import Verif.Spec.Merge

/-!
# Specification vocabulary for merging in rounded arithmetic
-/

namespace CostMapModel
namespace CostMap
variable {K : Type} [Field K] [LinearOrder K]

/-- The coordinates of the map are less than `2^43` cells from the origin of the frame. -/
structure Tame43 (m : CostMap K) : Prop where
  x : extent m.size.x m.position.x m.resolution ≤ 2 ^ 43 * m.resolution
  y : extent m.size.y m.position.y m.resolution ≤ 2 ^ 43 * m.resolution

/-- The upper corner of `m`, from its centre and its number of cells. -/
def corner (m : CostMap K) : Vec K :=
  ⟨m.position.x + m.size.x * m.resolution / 2, m.position.y + m.size.y * m.resolution / 2⟩

/-- The two maps have the same resolution and, up to `tol`, the same grid: the upper corner of `o` is `k` cells above that
of `m`. Row `u` of `m` then covers the same places as row `u + k` of `o`. -/
structure OnGrid (tol : K) (m o : CostMap K) (k : Idx) : Prop where
  res : o.resolution = m.resolution
  x : |o.corner.x - m.corner.x - k.x * m.resolution| ≤ tol
  y : |o.corner.y - m.corner.y - k.y * m.resolution| ≤ tol

/-- Cell `j` of `o` is the one at the place of cell `i` of `m`. -/
def Opposite (m o : CostMap K) (k : Idx) (i j : Idx) : Prop := j.In o.size ∧ o.logical j = m.logical i + k

/-- The map lies within `B` of the origin of the frame, with a cell of size `r` to spare. -/
structure Within (B r : K) (m : CostMap K) : Prop where
  x : |m.position.x| + |m.length.x| + r ≤ B
  y : |m.position.y| + |m.length.y| + r ≤ B

/-- The extent of `m` contains that of `o`, up to `tol`. -/
structure CoversUpTo (tol : K) (m o : CostMap K) : Prop where
  upper_x : o.position.x + o.length.x / 2 ≤ m.position.x + m.length.x / 2 + tol
  lower_x : m.position.x - m.length.x / 2 - tol ≤ o.position.x - o.length.x / 2
  upper_y : o.position.y + o.length.y / 2 ≤ m.position.y + m.length.y / 2 + tol
  lower_y : m.position.y - m.length.y / 2 - tol ≤ o.position.y - o.length.y / 2

/-- How much the other map sticks out: `a` cells above and `b` below, up to a sixteenth of a cell; on each axis `a` is at
least `b` and their difference is even. -/
structure GrowsBy (m other : CostMap K) (a b : Idx) : Prop where
  x : |over m.position.x m.length.x other.position.x other.length.x - a.x * m.resolution| ≤ m.resolution / 16 ∧
    |under m.position.x m.length.x other.position.x other.length.x - b.x * m.resolution| ≤ m.resolution / 16
  y : |over m.position.y m.length.y other.position.y other.length.y - a.y * m.resolution| ≤ m.resolution / 16 ∧
    |under m.position.y m.length.y other.position.y other.length.y - b.y * m.resolution| ≤ m.resolution / 16
  order_x : 0 ≤ b.x ∧ b.x ≤ a.x ∧ (a.x - b.x) % 2 = 0
  order_y : 0 ≤ b.y ∧ b.y ≤ a.y ∧ (a.y - b.y) % 2 = 0

end CostMap
end CostMapModel
