import Verif.Model.Programs
import Verif.Spec.Inflation
import Verif.Spec.Occupancy
import Verif.Spec.Costmap2D

/-! # Specification vocabulary for the demo programs -/

namespace CostMapModel
variable {K : Type} [Field K] [LinearOrder K] [FloorRing K]

/-- The centre of cell `i` of a map of `nx` by `ny` cells of side `r` around `(cx, cy)`. The first cell is the one with the largest
coordinates. -/
def cellCentre (cx cy r : K) (nx ny : Nat) (i : Idx) : Vec K :=
  ⟨cx + ((nx : K) / 2 - 1 / 2 - i.x) * r, cy + ((ny : K) / 2 - 1 / 2 - i.y) * r⟩

/-- Metadata of an image bundle with all fields present. -/
def bundleYaml (frame : String) (cx cy r : K) (nx ny : Nat) (entries : List (String × String)) : YamlFile K :=
  .parsed ⟨some frame, some cx, some cy, some r, some nx, some ny, some (entries.map fun p => ⟨some p.1, some p.2⟩)⟩

/-- What is assumed of the numerical library and the priority queue, for inflation radii up to `n` cells. The rounding to float
is monotone and correct to 24 bits. -/
structure InflationsEnv.Ok (env : InflationsEnv K) (n : Nat) : Prop where
  float : RoundOk env.rf
  float24 : ∀ x, 0 < x → |env.rf x - x| ≤ x / 2 ^ 24
  double : RoundOk env.rd
  double252 : env.rd 252 = 252
  exp : ExpOk env.exp
  hyp : HypOk env.hyp n
  hyp0 : env.hyp 0 0 = 0
  pop : PopOk env.pop

/-- The cells of an occupancy grid show the costs of the ROS costmap: at every position inside a cell of side `r` of the grid, the grid
holds the occupancy value of the costmap's cost there. -/
def Shows (g : OccupancyGrid K) (c : Costmap2D K) : Prop :=
  ∀ p : Vec K, (∃ col row : Int, (0 ≤ col ∧ col < g.width) ∧ (0 ≤ row ∧ row < g.height) ∧
      (g.origin.x + col * g.resolution < p.x ∧ p.x < g.origin.x + (col + 1) * g.resolution) ∧
      (g.origin.y + row * g.resolution < p.y ∧ p.y < g.origin.y + (row + 1) * g.resolution)) →
    ∃ v, c.costAt p = some v ∧ g.valueAt p = some (occupancyOf v)

/-- A grid of `nx` by `ny` cells, in the frame and resolution of the ROS costmap, that shows its costs and carries the given time in
nanoseconds. -/
structure Published (g : OccupancyGrid K) (c : Costmap2DROS K) (nx ny : Nat) (stamp : Nat) : Prop where
  frame : g.frameId = c.globalFrame
  time : g.stampSec.toNat * 1000000000 + g.stampNsec.toNat = stamp
  width : g.width = nx
  height : g.height = ny
  resolution : g.resolution = c.costmap.resolution
  shows : Shows g c.costmap

/-- A window of `nx` by `ny` cells around the robot fits into the costmap with half a cell to spare. -/
def WindowFits (c : Costmap2DROS K) (nx ny : Nat) : Prop :=
  ∃ rb : Vec K, c.robot = some rb ∧
    c.costmap.origin.x + (nx + 1) * c.costmap.resolution / 2 ≤ rb.x ∧
    rb.x + (nx + 1) * c.costmap.resolution / 2 < c.costmap.origin.x + c.costmap.sizeX * c.costmap.resolution ∧
    c.costmap.origin.y + (ny + 1) * c.costmap.resolution / 2 ≤ rb.y ∧
    rb.y + (ny + 1) * c.costmap.resolution / 2 < c.costmap.origin.y + c.costmap.sizeY * c.costmap.resolution

end CostMapModel
