import Verif.Spec.Move
import Verif.Model.Rounded

/-!
# Specification vocabulary for rounded arithmetic
-/

namespace CostMapModel
variable {K : Type} [Field K] [LinearOrder K]

/-- `rd` has a relative error of at most `2^-53`, as rounding to the nearest `double` has. -/
def DoublePrecision (rd : K → K) : Prop := ∀ x, |rd x - x| ≤ |x| / 2 ^ 53

namespace CostMap

/-- A usable geometry whose stored length is rounded: what `setGeometry` leaves behind when it computes with `rd`. -/
structure GeoRd (rd : K → K) (m : CostMap K) : Prop where
  res_pos : 0 < m.resolution
  size_x : 0 < m.size.x
  size_y : 0 < m.size.y
  len_x : m.length.x = rd ((m.size.x : K) * m.resolution)
  len_y : m.length.y = rd ((m.size.y : K) * m.resolution)
  start : m.startIndex.In m.size

/-- The extent of the coordinates the map deals with, on one axis: how far its centre is from the origin of the frame,
plus its length and one cell. -/
def extent (n : Int) (pos res : K) : K := |pos| + ((n : K) + 1) * res

/-- The coordinates of the map are less than `2^47` cells from the origin of the frame. (With cells of a tenth of a
millimetre this is fourteen million kilometres.) -/
structure Tame (m : CostMap K) : Prop where
  x : extent m.size.x m.position.x m.resolution ≤ 2 ^ 47 * m.resolution
  y : extent m.size.y m.position.y m.resolution ≤ 2 ^ 47 * m.resolution

/-- The tolerance for rounding errors on an axis: the extent times `2^-48`. -/
def tolX (m : CostMap K) : K := extent m.size.x m.position.x m.resolution / 2 ^ 48
/-- The same on the other axis. -/
def tolY (m : CostMap K) : K := extent m.size.y m.position.y m.resolution / 2 ^ 48

/-- The map lies in an arena that reaches `B` from the origin of the frame: it is smaller than `B`, its centre is less
than `2 * B` away, and `B` is less than `2^44` cells. -/
structure InArena (B : K) (m : CostMap K) : Prop where
  size_x : ((m.size.x : K) + 1) * m.resolution ≤ B
  size_y : ((m.size.y : K) + 1) * m.resolution ≤ B
  cells : B ≤ 2 ^ 44 * m.resolution
  pos_x : |m.position.x| ≤ 2 * B
  pos_y : |m.position.y| ≤ 2 * B

/-- The position lies in the arena. -/
def PointIn (B : K) (p : Vec K) : Prop := |p.x| ≤ B ∧ |p.y| ≤ B

/-- A sequence of moves, collecting the regions they report as new. -/
def runMoves [FloorRing K] (rd : K → K) (bnd : Int → Int → Int) : List (Vec K) → Act (CostMap K) (List BufferRegion)
  | [] => Act.pure []
  | p :: ps => Act.bind (moveWithRd rd bnd p) fun fr => Act.bind (runMoves rd bnd ps) fun rs => Act.pure (fr.2 ++ rs)

end CostMap
end CostMapModel
