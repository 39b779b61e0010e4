import Verif.Model.Bundle
import Verif.Model.Occupancy
import Verif.Model.Costmap2D

/-!
# Nodes and services

Model of `SaveImageBundle`, `LoadImageBundle` (cost_map_ros/src/lib/image_bundles.cpp 189-239), of the service provider
(cost_map_ros/src/lib/converter.cpp 299-326), of `resolveResourceName` (cost_map_ros/src/lib/utilities.cpp 23-59), and of the nodes
in cost_map_visualisations. Messages arrive in some order, one at a time (`_costmapCallback` takes a lock, the other callbacks
run in `ros::spin`); transport is not modelled. An exception that leaves a callback ends the process.
-/

namespace CostMapModel
open CostMap
variable {K : Type} [Field K] [LinearOrder K] [FloorRing K]

/-! ## SaveImageBundle -/

/-- `SaveImageBundle` (cost_map_ros/include/cost_map_ros/image_bundles.hpp): `finished` and the files; `saves` records the maps
that were written. -/
structure SaveNode (K : Type) where
  finished : Bool
  files : Files K
  saves : List (CostMap K)

/-- The constructor (image_bundles.cpp 216-225). -/
def SaveNode.new (files : Files K) : SaveNode K := ⟨false, files, []⟩

/-- `SaveImageBundle::_costmapCallback` (image_bundles.cpp 227-239). What is on disk after `toImageBundle` fails midway is not
modelled here. -/
def SaveNode.callback (txt : K → K) (msg : CostMapMsg K) : Act (SaveNode K) Unit := fun s =>
  if s.finished then (.ok (), s)
  else
    match fromMessage msg (CostMap.new []) with
    | (.ok true, m) =>
      match m.toImageBundle txt s.files with
      | .ok files => (.ok (), ⟨true, files, s.saves ++ [m]⟩)
      | .thrown e => (.thrown e, s)
      | .assertFail => (.assertFail, s)
      | .ub => (.ub, s)
      | .outOfFuel => (.outOfFuel, s)
    | (.ok false, _) => (.ok (), s)
    | (.thrown e, _) => (.thrown e, s)
    | (.assertFail, _) => (.assertFail, s)
    | (.ub, _) => (.ub, s)
    | (.outOfFuel, _) => (.outOfFuel, s)

/-- The messages received, one after the other. -/
def SaveNode.run (txt : K → K) (msgs : List (CostMapMsg K)) : Act (SaveNode K) Unit :=
  Act.forEach (SaveNode.callback txt) msgs

/-! ## LoadImageBundle -/

/-- `LoadImageBundle::LoadImageBundle` and `publish` (image_bundles.cpp 189-214) once the file name is known: the published
message. -/
def loadImageBundle (cv : Cv) (rf : K → K) (files : Files K) : Res (CostMapMsg K) :=
  match fromImageBundle cv rf files (CostMap.new []) with
  | (.ok _, m) => m.toMessage
  | (.thrown e, _) => .thrown e
  | (.assertFail, _) => .assertFail
  | (.ub, _) => .ub
  | (.outOfFuel, _) => .outOfFuel

/-! ## The service -/

/-- `Costmap2DROSServiceProvider::callback` (converter.cpp 314-326): the return value and the response. The result of the
conversion is not used. -/
def serviceCallback (c : Costmap2DROS K) (lengthX lengthY : K) : Res (Bool × CostMapMsg K) :=
  match fromCostmap2DROSAtRobotPose c ⟨lengthX, lengthY⟩ "obstacle_costs" (CostMap.new []) with
  | (.ok _, m) => m.toMessage.bind fun msg => .ok (true, msg)
  | (.thrown e, _) => .thrown e
  | (.assertFail, _) => .assertFail
  | (.ub, _) => .ub
  | (.outOfFuel, _) => .outOfFuel

/-! ## The relay -/

/-- The relay (cost_map_visualisations/src/applications/service_relay.cpp): the layer it relays and what it has published. -/
structure Relay (K : Type) where
  layerName : String
  published : List (OccupancyGrid K)

/-- One round of the loop (service_relay.cpp 59-76). `none`: the call failed, `continue`. The result of `fromMessage` is not
used. -/
def Relay.step (rf : K → K) (reply : Option (CostMapMsg K)) : Act (Relay K) Unit := fun s =>
  match reply with
  | none => (.ok (), s)
  | some msg =>
    match fromMessage msg (CostMap.new []) with
    | (.ok _, m) =>
      let layer := match m.layers with
        | [l] => l
        | _ => s.layerName
      match m.toOccupancyGrid rf layer [] with
      | .ok g => (.ok (), ⟨layer, s.published ++ [g]⟩)
      | .thrown e => (.thrown e, { s with layerName := layer })
      | .assertFail => (.assertFail, { s with layerName := layer })
      | .ub => (.ub, { s with layerName := layer })
      | .outOfFuel => (.outOfFuel, { s with layerName := layer })
    | (.thrown e, _) => (.thrown e, s)
    | (.assertFail, _) => (.assertFail, s)
    | (.ub, _) => (.ub, s)
    | (.outOfFuel, _) => (.outOfFuel, s)

/-- The relay's loop over the replies it gets (service_relay.cpp 59-76). -/
def Relay.run (rf : K → K) (replies : List (Option (CostMapMsg K))) : Act (Relay K) Unit :=
  Act.forEach (Relay.step rf) replies

/-! ## The visualisation node -/

/-- `cost_map::OccupancyGrid` (cost_map_visualisations/include/cost_map_visualisations/occupancy_grid.hpp): the topics advertised so
far and what was published on which topic. -/
structure Visualiser (K : Type) where
  topics : List String
  published : List (String × OccupancyGrid K)

/-- The body of the loop over the layers (occupancy_grid.cpp 32-45). The number of subscribers is never negative, so the test at
39 is always true. The result of `fromMessage` is not used. -/
def Visualiser.layer (rf : K → K) (msg : CostMapMsg K) (l : String) : Act (Visualiser K) Unit := fun s =>
  let s := if l ∈ s.topics then s else { s with topics := s.topics ++ [l] }
  match fromMessage msg (CostMap.new []) with
  | (.ok _, m) =>
    match m.toOccupancyGrid rf l [] with
    | .ok g => (.ok (), { s with published := s.published ++ [(l, g)] })
    | .thrown e => (.thrown e, s)
    | .assertFail => (.assertFail, s)
    | .ub => (.ub, s)
    | .outOfFuel => (.outOfFuel, s)
  | (.thrown e, _) => (.thrown e, s)
  | (.assertFail, _) => (.assertFail, s)
  | (.ub, _) => (.ub, s)
  | (.outOfFuel, _) => (.outOfFuel, s)

/-- `OccupancyGrid::_costMapCallback` (occupancy_grid.cpp 31-47). -/
def Visualiser.callback (rf : K → K) (msg : CostMapMsg K) : Act (Visualiser K) Unit :=
  Act.forEach (Visualiser.layer rf msg) msg.layers

/-- The messages received, one after the other. -/
def Visualiser.run (rf : K → K) (msgs : List (CostMapMsg K)) : Act (Visualiser K) Unit :=
  Act.forEach (Visualiser.callback rf) msgs

/-! ## Resource names -/

/-- The parts before and after the first slash (utilities.cpp 28-34). -/
def splitSlash : List Char → Option (List Char × List Char)
  | [] => none
  | '/' :: cs => some ([], cs)
  | c :: cs => (splitSlash cs).map fun (a, b) => (c :: a, b)

/-- `haystack.find(needle) != npos` (utilities.cpp 53). -/
def containsStr (haystack needle : List Char) : Bool :=
  haystack.tails.any fun t => needle.isPrefixOf t

/-- `resolveResourceName` (utilities.cpp 23-59). `registered` is what `ros::package::getPlugins` returns. The index of the slash
is kept in an `int` (29); names of 2^31 and more characters are not modelled. -/
def resolveResourceName (registered : List String) (name : String) : Res String :=
  match splitSlash name.toList with
  | none => .thrown .invalidArgument
  | some (package, file) =>
    match registered.find? fun f => containsStr f.toList package && containsStr f.toList file with
    | some f => .ok f
    | none => .thrown .runtimeError

end CostMapModel
