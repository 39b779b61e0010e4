import Verif.Model.MachineHistory
import Verif.Spec.Costmap2D
import Verif.Spec.Machine
import Verif.Spec.MachineInflation
import Verif.Spec.RoundedSubmap
import Verif.Spec.Safety

/-!
# Specification vocabulary: histories on the machine
-/

namespace CostMapModel
open CostMap
variable {K : Type} [Field K] [LinearOrder K] [FloorRing K]

/-- The calls that compute no coordinates. -/
def Call.NoCoordinates : Call K → Prop
  | .setBasicLayers _ | .setTimestamp _ | .resetTimestamp | .setFrameId _ | .setPosition _ | .setStartIndex _ | .add _ _
  | .addConst _ _ | .erase _ | .setAt _ _ _ | .clear _ | .clearBasic | .clearAll | .deflate _ _ _ => True
  | _ => False

/-- What a robot's world may be: it reaches `size` from the origin, cells are no smaller than `cell`, and it is at most `2^23`
(eight million) of the smallest cells in size. With cells of a centimetre, 83 kilometres. -/
structure World (K : Type) [Field K] [LinearOrder K] where
  size : K
  cell : K
  cell_pos : 0 < cell
  cells : size ≤ 2 ^ 23 * cell

/-- A geometry that fits the world: its centre lies in it, its cells are large enough, and it is at least three quarters of a
cell long and smaller than the world by two cells. -/
structure World.Geometry (w : World K) (length : Vec K) (resolution : K) (position : Vec K) : Prop where
  cell : w.cell ≤ resolution
  low_x : 3 / 4 * resolution ≤ length.x
  low_y : 3 / 4 * resolution ≤ length.y
  high_x : length.x + 2 * resolution ≤ w.size
  high_y : length.y + 2 * resolution ≤ w.size
  centre : PointIn w.size position

/-- A ROS costmap that fits the world: it is usable, its corner lies in the world, its cells are large enough, and it is smaller than
the world by three cells. -/
structure World.Costmap (w : World K) (c : Costmap2D K) : Prop where
  ok : c.Ok
  cell : w.cell ≤ c.resolution
  high_x : ((c.sizeX : K) + 3) * c.resolution ≤ w.size
  high_y : ((c.sizeY : K) + 3) * c.resolution ≤ w.size
  corner : PointIn w.size c.origin

/-- The map and the other one lie within a sixteenth of the world, and the layers it is judged by exist. -/
structure World.Extends (w : World K) (m other : CostMap K) : Prop where
  map : m.Within (w.size / 16) m.resolution
  other : other.Within (w.size / 16) m.resolution
  basic : ∀ l ∈ m.basicLayers, m.exists l = true

/-- The state of a map in a world: it is coherent, its geometry is one that `setGeometry` leaves behind (up to the start of the
buffer), it does not leave the world and its cells are not too small. -/
structure InWorld (w : World K) (rd : K → K) (m : CostMap K) : Prop where
  coherent : m.Coherent
  geo : m.GeoRd rd
  arena : m.InArena w.size
  cell : w.cell ≤ m.resolution

/-- What a caller has to see to before a call: positions lie in the world, geometries fit it, indices are those of cells. -/
def World.Fits (w : World K) (F : Fmt K) (rf : K → K) (m : CostMap K) : MachineCall K → Prop
  | .plain (.setAt _ i _) => i.In m.size
  | .plain (.setPosition p) => PointIn w.size p
  | .plain (.setStartIndex i) => i.In m.size
  | .plain c => c.NoCoordinates
  | .setGeometry len r p => w.Geometry len r p
  /- a position that is taken to be inside is clear of the lower edges by the tolerance (see C74) -/
  | .setAtPosition _ p _ => PointIn w.size p ∧ (m.isInsideRd F.rd p = true →
      m.position.x - m.length.x / 2 + m.tolX ≤ p.x ∧ m.position.y - m.length.y / 2 + m.tolY ≤ p.y)
  | .move p => PointIn w.size p ∧ ∀ l ∈ m.basicLayers, m.exists l = true
  | .extendToInclude o => w.Extends m o
  /- the other map has the same grid up to an eighth of a cell, and the layers -/
  | .addDataFrom o extend _ all ls => o.GeoRd F.rd ∧ o.Coherent ∧ o.Tame43 ∧ o.Small ∧
      (∃ k, OnGrid (m.resolution / 8) m o k) ∧ (∀ l ∈ (if all then o.layers else ls), o.exists l = true) ∧
      (∀ l ∈ m.basicLayers, m.exists l = true ∨ l ∈ (if all then o.layers else ls)) ∧ (extend = true → w.Extends m o)
  | .inflate obj pop hyp _ _ radius computer => 0 ≤ radius ∧ radius ≤ w.size ∧ PopOk pop ∧
      HypOk hyp ⌈F.rd (radius / m.resolution)⌉.toNat ∧ UsedU F rf hyp computer m.resolution obj
  | .fromMessage msg => w.Geometry ⟨msg.lengthX, msg.lengthY⟩ msg.resolution msg.position ∧
      (msg.outerStartIndex.toNat + 3 / 4 : K) * msg.resolution ≤ msg.lengthX ∧
      (msg.innerStartIndex.toNat + 3 / 4 : K) * msg.resolution ≤ msg.lengthY ∧ ∀ a ∈ msg.data, a.Complete
  | .addLayerFromImage _ _ _ => True
  | .fromImageBundle _ files => ∀ b, readInfo rf files.yaml = .ok b →
      w.Geometry ⟨rf (b.resolution * rf b.cellsX), rf (b.resolution * rf b.cellsY)⟩ b.resolution b.centre
  | .fromCostmap c _ => w.Costmap c.costmap
  /- a window of that geometry around the robot, if it knows where it is, fits the world -/
  | .fromCostmapAtRobot c geometry _ => w.Costmap c.costmap ∧ ∀ p, c.robot = some p → w.Geometry geometry c.costmap.resolution p

/-- A request to the service that fits the world: the robot's position is known, a window of the requested lengths around it fits the
world and has less than `2^31` cells, and the time is less than `2^32` seconds. -/
structure World.Request (w : World K) (rd : K → K) (c : Costmap2DROS K) (lx ly : K) : Prop where
  costmap : w.Costmap c.costmap
  robot : ∃ p, c.robot = some p ∧ w.Geometry ⟨lx, ly⟩ c.costmap.resolution p
  cells : roundHalfAway (rd (lx / c.costmap.resolution)) * roundHalfAway (rd (ly / c.costmap.resolution)) < 2 ^ 31
  time : c.now < 2 ^ 32 * 10 ^ 9

/-- The calls that give a map a geometry. -/
def MachineCall.GivesGeometry : MachineCall K → Prop
  | .setGeometry _ _ _ | .fromMessage _ | .fromImageBundle _ _ | .fromCostmap _ _ => True
  | .fromCostmapAtRobot c _ _ => c.robot ≠ none
  | _ => False

/-- The maps a program can hold on the machine, once they have been given a geometry: whatever calls that fit the world it makes,
whether they return or throw; and submaps of them. -/
inductive HeldI (w : World K) (F : Fmt K) (rf : K → K) : CostMap K → Prop where
  /-- The constructor (cost_map.cpp 19-32), followed by a call that gives the map a geometry. -/
  | new {ls : List String} {m : CostMap K} (c : MachineCall K) : ls.Nodup → c.GivesGeometry → w.Fits F rf (CostMap.new ls) c →
      c.run F rf (CostMap.new ls) = (.ok (), m) → HeldI w F rf m
  /-- A call that returned. -/
  | returned {m m' : CostMap K} (c : MachineCall K) : HeldI w F rf m → w.Fits F rf m c → c.run F rf m = (.ok (), m') →
      HeldI w F rf m'
  /-- A call that threw, the exception having been caught. -/
  | threw {m m' : CostMap K} (c : MachineCall K) (e : Exn) : HeldI w F rf m → w.Fits F rf m c → c.run F rf m = (.thrown e, m') →
      HeldI w F rf m'
  /-- A submap (cost_map.cpp 280-325) around a position of the world, for the requests of C78. -/
  | submap {m s : CostMap K} (pos len : Vec K) (i j : Idx) : HeldI w F rf m → PointIn w.size pos → RequestOkRd F.rd m pos len →
      CentreOkRd F.rd m pos len → m.getSubmapI F.rd pos len i = .ok (s, j, true) → HeldI w F rf s

end CostMapModel
