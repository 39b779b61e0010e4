import Verif.Model.Nodes
import Verif.Model.Inflation

/-!
# The demo programs

Model of the `main` functions of cost_map_demos/src/applications/inflations.cpp and
cost_map_demos/src/applications/from_ros_costmaps.cpp, from the point where ROS is set up to `ros::spin()`. A value is the exit
code returned after `ros::spin()` ends. An exception that leaves `main` ends the program; it stays `thrown` here.
-/

namespace CostMapModel
open CostMap
variable {K : Type} [Field K] [LinearOrder K] [FloorRing K]

/-! ## inflations.cpp -/

/-- What `inflations` gets from outside: OpenCV, the roundings to float and double, `std::exp`, the rounded `std::hypot`, the
choices of the priority queue, the registered resources, and the files. -/
structure InflationsEnv (K : Type) where
  cv : Cv
  rf : K → K
  rd : K → K
  exp : K → K
  hyp : Nat → Nat → K
  pop : Inflation.Pop K
  registered : List String
  onDisk : String → Bool
  disk : String → Files K

/-- The state of `inflations`: the loader's map, the message the loader has published, and the occupancy grids published so far
with their topics. -/
structure InflationsState (K : Type) where
  map : CostMap K
  message : Option (CostMapMsg K)
  grids : List (String × OccupancyGrid K)

namespace Inflations

/-- A call on the loader's map. -/
def onMap {α : Type} (f : Act (CostMap K) α) : Act (InflationsState K) α := fun s =>
  ((f s.map).1, { s with map := (f s.map).2 })

/-- The file `LoadImageBundle` reads (image_bundles.cpp 196-202). -/
def locate (env : InflationsEnv K) (name : String) : Res String :=
  if env.onDisk name then .ok name else resolveResourceName env.registered name

/-- The inflation computer of inflations.cpp 37-41: inscribed radius 0.3 and rate 5, both as `float`. `Inflate` is modelled for
computers that always give a cost; `C85_computer` shows that this one does for every distance. -/
def computer (env : InflationsEnv K) (d : K) : Cost :=
  match Inflation.rosCost env.rf env.rd env.exp (env.rf (3 / 10)) (env.rf 5) d with
  | .ok c => c
  | _ => 0

/-- `inflate(...)` (inflations.cpp 40-46), with a new `Inflate` object and radius 0.8 as `float`. -/
def inflateStep (env : InflationsEnv K) : Act (InflationsState K) Unit := fun s =>
  let r := Inflation.inflate env.pop env.hyp "obstacle_costs" "inflated_costs" (env.rf (8 / 10)) (computer env)
    ⟨Inflater.new, s.map, []⟩
  (r.1, { s with map := r.2.map })

/-- The `try` block (inflations.cpp 32-48), with the constructor of `LoadImageBundle` (image_bundles.cpp 189-214). -/
def tryBlock (env : InflationsEnv K) : Act (InflationsState K) Unit :=
  Act.bind (Act.read fun _ => locate env "cost_map_ros/example.yaml") fun file =>
  Act.bind (onMap (fromImageBundle env.cv env.rf (env.disk file))) fun _ =>
  Act.bind (Act.read fun s => s.map.toMessage) fun msg =>
  Act.bind (Act.modify fun s => { s with message := some msg }) fun _ =>
  Act.bind (inflateStep env) fun _ =>
  onMap (deflate false "inflated_costs" "deflated_costs")

/-- The publishing (inflations.cpp 61-67): three conversions into new messages, then three times `publish`. -/
def publish (env : InflationsEnv K) : Act (InflationsState K) Unit :=
  Act.bind (Act.read fun s => s.map.toOccupancyGrid env.rf "obstacle_costs" []) fun g1 =>
  Act.bind (Act.read fun s => s.map.toOccupancyGrid env.rf "inflated_costs" []) fun g2 =>
  Act.bind (Act.read fun s => s.map.toOccupancyGrid env.rf "deflated_costs" []) fun g3 =>
  Act.modify fun s => { s with grids := s.grids ++ [("obstacle_layer", g1), ("inflation_layer", g2), ("deflation_layer", g3)] }

/-- `main` of `inflations` (inflations.cpp 20-74). Every exception of the `try` block is a `std::exception`; the handler returns
`EXIT_FAILURE` (51). -/
def main (env : InflationsEnv K) : Act (InflationsState K) Nat := fun s =>
  match tryBlock env s with
  | (.ok _, s') => Act.bind (publish env) (fun _ => Act.pure 0) s'
  | (.thrown _, s') => (.ok 1, s')
  | (.assertFail, s') => (.assertFail, s')
  | (.ub, s') => (.ub, s')
  | (.outOfFuel, s') => (.outOfFuel, s')

/-- Where the program starts. -/
def start : InflationsState K := ⟨CostMap.new [], none, []⟩

end Inflations

/-! ## from_ros_costmaps.cpp -/

namespace FromRos

/-- One of the five conversions (from_ros_costmaps.cpp 55-61): of the whole costmap, or of a window around the robot. The result is
not used. -/
def convert (c : Costmap2DROS K) : Option (Vec K) → Res (CostMap K)
  | none =>
    match fromCostmap2DROS c "obstacle_costs" (CostMap.new []) with
    | (.ok _, m) => .ok m
    | (.thrown e, _) => .thrown e
    | (.assertFail, _) => .assertFail
    | (.ub, _) => .ub
    | (.outOfFuel, _) => .outOfFuel
  | some geometry =>
    match fromCostmap2DROSAtRobotPose c geometry "obstacle_costs" (CostMap.new []) with
    | (.ok _, m) => .ok m
    | (.thrown e, _) => .thrown e
    | (.assertFail, _) => .assertFail
    | (.ub, _) => .ub
    | (.outOfFuel, _) => .outOfFuel

/-- The five conversions, one after the other. -/
def convertAll : List (Costmap2DROS K × Option (Vec K)) → Res (List (CostMap K))
  | [] => .ok []
  | (c, geometry) :: rest => (convert c geometry).bind fun m => (convertAll rest).bind fun ms => .ok (m :: ms)

/-- The publishing (from_ros_costmaps.cpp 73-83). One message is used for all conversions, so each finds the data of the one
before. `getLayers()[0]` of a map without layers reads past the end of a vector. The result is what has been published. -/
def publishAll (rf : K → K) : List (CostMap K) → Act (List (OccupancyGrid K)) Unit
  | [] => Act.pure ()
  | m :: ms =>
    Act.bind (Act.read fun _ => Res.ofOption m.layers.head?) fun l =>
    Act.bind (Act.read fun published => m.toOccupancyGrid rf l ((published.getLast?.map OccupancyGrid.data).getD [])) fun g =>
    Act.bind (Act.modify fun published => published ++ [g]) fun _ => publishAll rf ms

/-- The requests of from_ros_costmaps.cpp 55-61: two whole costmaps, two windows of 3 by 3 metres, one of 2.5 by 2.5. -/
def requests (a b c d e : Costmap2DROS K) : List (Costmap2DROS K × Option (Vec K)) :=
  [(a, none), (b, none), (c, some ⟨3, 3⟩), (d, some ⟨3, 3⟩), (e, some ⟨5 / 2, 5 / 2⟩)]

/-- `main` of `from_ros_costmaps` (from_ros_costmaps.cpp 54-90), from the point where the ROS costmaps are there. -/
def main (rf : K → K) (a b c d e : Costmap2DROS K) : Act (List (OccupancyGrid K)) Nat :=
  Act.bind (Act.read fun _ => convertAll (requests a b c d e)) fun ms =>
  Act.bind (publishAll rf ms) fun _ => Act.pure 0

end FromRos
end CostMapModel
