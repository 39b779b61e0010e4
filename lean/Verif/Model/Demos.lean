import Verif.Model.Costmap2D

/-!
# The demo costmaps

Model of the constructor of `ROSCostmapServer` (cost_map_demos/src/lib/from_ros_costmaps.cpp 33-69) and of the printing of a ROS
costmap (cost_map_demos/src/lib/utilities.cpp 20-37). `costmap_2d::Costmap2D` is external. Parameters, transforms and the creation of
the ROS costmap (43-54) are not modelled: filling starts from the costmap they give.
-/

namespace CostMapModel
variable {K : Type} [Field K] [LinearOrder K] [FloorRing K]

/-- Subtraction of `unsigned int`s. -/
def subU32 (a b : Nat) : Nat := (a + (2 ^ 32 - b)) % 2 ^ 32

namespace Costmap2D

/-- `Costmap2D::getIndex` (external): `my * size_x_ + mx` in `unsigned int`. -/
def cellIndex (c : Costmap2D K) (mx my : Nat) : Nat := (my * c.sizeX + mx) % 2 ^ 32

/-- `Costmap2D::setCost` (external): the index is not checked. -/
def setCost (mx my : Nat) (v : Cost) : Act (Costmap2D K) Unit := fun c =>
  if c.cellIndex mx my < c.costs.length then (.ok (), { c with costs := c.costs.set (c.cellIndex mx my) v }) else (.ub, c)

/-- `Costmap2D::getCost` (external): the index is not checked. -/
def getCost (c : Costmap2D K) (mx my : Nat) : Res Cost := .ofOption c.costs[c.cellIndex mx my]?

/-- The cost written at `fill_index` (from_ros_costmaps.cpp 63-64): the fraction `(fill_index + 1) / size` in double, times
`INSCRIBED_INFLATED_OBSTACLE` (253), converted to `unsigned char`, which is undefined behaviour outside of `(-1, 256)`. Without
columns the quotient is infinite. `rd` is the rounding to double. -/
def stripe (rd : K → K) (size i : Nat) : Res Cost :=
  if size = 0 then .ub else
  let x := rd (rd ((((i + 1) % 2 ^ 32 : Nat) : K) / (size : K)) * 253)
  if -1 < x ∧ x < 256 then .ok (UInt8.ofNat (truncToInt x).toNat) else .ub

/-- The body of the inner loop (from_ros_costmaps.cpp 63-64). -/
def fillCell (rd : K → K) (row i : Nat) : Act (Costmap2D K) Unit :=
  Act.bind (Act.read fun c => stripe rd c.sizeX i) fun v => setCost i row v

/-- The body of the outer loop (from_ros_costmaps.cpp 58-67). -/
def fillRow (rd : K → K) (row : Nat) : Act (Costmap2D K) Unit := fun c =>
  Act.bind (Act.forEach (fillCell rd row) (List.range (subU32 c.sizeX 2))) (fun _ =>
  Act.bind (setCost (subU32 c.sizeX 2) row LETHAL_OBSTACLE) fun _ =>
  setCost (subU32 c.sizeX 1) row NO_INFORMATION) c

/-- The filling of the costmap (from_ros_costmaps.cpp 57-68). -/
def fill (rd : K → K) : Act (Costmap2D K) Unit := fun c =>
  Act.forEach (fillRow rd) (List.range c.sizeY) c

/-- What is written for one cell (utilities.cpp 23 and 32): the decimal number and a blank. -/
def cellText (v : Cost) : List Char := Nat.toDigits 10 v.toNat ++ [' ']

/-- What is written for one value of `i` (utilities.cpp 22-25 and 31-34). -/
def lineText (c : Costmap2D K) (i : Nat) : Res (List Char) :=
  (List.range c.sizeY).foldr (fun j rest => (c.getCost i j).bind fun v => rest.bind fun t => .ok (cellText v ++ t)) (.ok ['\n'])

/-- `pretty_print` and `operator<<` (utilities.cpp 20-37): the characters written. -/
def text (c : Costmap2D K) : Res (List Char) :=
  (List.range c.sizeX).foldr (fun i rest => (c.lineText i).bind fun l => rest.bind fun t => .ok (l ++ t)) (.ok [])

end Costmap2D
end CostMapModel
