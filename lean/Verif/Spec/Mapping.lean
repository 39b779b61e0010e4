import Verif.Model.Mapping
import Verif.Spec.Accumulate
import Verif.Spec.MachineHistory
import Verif.Spec.RoundedCostmap2D

/-!
# Specification vocabulary: a robot that maps its surroundings
-/

namespace CostMapModel
open CostMap
variable {K : Type} [Field K] [LinearOrder K] [FloorRing K]

/-- A reading that can be taken into the map `m`: the costmap fits the world, its corner and its resolution are multiples of `u`, its
cells are, up to an eighth, those of the map's grid, and the window, where the robot's position is known, fits into the costmap with a
cell to spare on each side. -/
structure Reading.Fits (w : World K) (u : K) (m : CostMap K) (s : Reading K) : Prop where
  costmap : w.Costmap s.costmap.costmap
  grid : ∃ a b, s.costmap.costmap.OnGrid u a b
  resolution : s.costmap.costmap.resolution = m.resolution
  aligned : ∃ k : Idx,
    |s.costmap.costmap.origin.x - (m.position.x - m.size.x * m.resolution / 2) - k.x * m.resolution| ≤ m.resolution / 8 ∧
    |s.costmap.costmap.origin.y - (m.position.y - m.size.y * m.resolution / 2) - k.y * m.resolution| ≤ m.resolution / 8
  cells_x : 0 < s.nx
  cells_y : 0 < s.ny
  robot : ∀ p, s.costmap.robot = some p → PointIn w.size p ∧
    s.costmap.costmap.origin.x + (s.nx + 2) * m.resolution / 2 ≤ p.x ∧
    p.x + (s.nx + 2) * m.resolution / 2 ≤ s.costmap.costmap.origin.x + s.costmap.costmap.sizeX * m.resolution ∧
    s.costmap.costmap.origin.y + (s.ny + 2) * m.resolution / 2 ≤ p.y ∧
    p.y + (s.ny + 2) * m.resolution / 2 ≤ s.costmap.costmap.origin.y + s.costmap.costmap.sizeY * m.resolution

/-- The window of a reading: none if the robot does not know where it is; otherwise the cells from column `x0` and row `y0` on, all of
them in the costmap, and around the robot up to half a cell (and rounding). -/
def Reading.Window (s : Reading K) : Option (Nat × Nat) → Prop
  | none => s.costmap.robot = none
  | some (x0, y0) => ∃ p, s.costmap.robot = some p ∧
      x0 + s.nx ≤ s.costmap.costmap.sizeX ∧ y0 + s.ny ≤ s.costmap.costmap.sizeY ∧
      |s.costmap.costmap.origin.x + (x0 + (s.nx : K) / 2) * s.costmap.costmap.resolution - p.x| ≤
        (1 / 2 + 1 / 2 ^ 20) * s.costmap.costmap.resolution ∧
      |s.costmap.costmap.origin.y + (y0 + (s.ny : K) / 2) * s.costmap.costmap.resolution - p.y| ≤
        (1 / 2 + 1 / 2 ^ 20) * s.costmap.costmap.resolution

/-- The costmap of a reading has the known cost `d` in a cell of the window at the place of cell `i` of the map: the centres of the two
cells are the same up to an eighth of a cell. -/
def Reading.Sees (m : CostMap K) (i : Idx) (q : Reading K × Option (Nat × Nat)) (d : Cost) : Prop :=
  ∃ x0 y0 col row, q.2 = some (x0, y0) ∧ (x0 ≤ col ∧ col < x0 + q.1.nx) ∧ (y0 ≤ row ∧ row < y0 + q.1.ny) ∧
    q.1.costmap.costmap.cell col row = some d ∧ d ≠ NO_INFORMATION ∧
    |(q.1.costmap.costmap.cellCentre col row).x - (m.idealCentre (m.logical i)).x| ≤ m.resolution / 8 ∧
    |(q.1.costmap.costmap.cellCentre col row).y - (m.idealCentre (m.logical i)).y| ≤ m.resolution / 8

end CostMapModel
