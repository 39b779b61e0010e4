import Verif.Spec.Rounded

/-!
# Specification vocabulary for 32-bit indices
-/

namespace CostMapModel
namespace CostMap
variable {K : Type} [Field K] [LinearOrder K]

/-- At most `2^29` cells (more than five hundred million) along each axis. -/
structure Small (m : CostMap K) : Prop where
  x : m.size.x ≤ 2 ^ 29
  y : m.size.y ≤ 2 ^ 29

/-- The position is at most `2^29` cells from the centre of the map, along each axis. -/
structure NearBy (m : CostMap K) (p : Vec K) : Prop where
  x : |p.x - m.position.x| ≤ 2 ^ 29 * m.resolution
  y : |p.y - m.position.y| ≤ 2 ^ 29 * m.resolution

end CostMap

/-- Both components are at most `2^29` in absolute value. -/
structure Idx.Small (i : Idx) : Prop where
  x : |i.x| ≤ 2 ^ 29
  y : |i.y| ≤ 2 ^ 29

end CostMapModel
