import Verif.Model.MachineHistory
import Verif.Model.Nodes

/-!
# The nodes that save and load image bundles, on the machine

`SaveImageBundle` and `LoadImageBundle` (cost_map_ros/src/lib/image_bundles.cpp 189-239) with rounded `double`s and `float`s and with
`int`s that overflow (`Res.ub`). `toImageBundle` computes no coordinates, and its `int`s count rows and columns; it is that of
`Model/Bundle.lean`.
-/

namespace CostMapModel
open CostMap
variable {K : Type} [Field K] [LinearOrder K] [FloorRing K] (rd rf : K → K)

/-- `SaveImageBundle::_costmapCallback` (image_bundles.cpp 227-239). What is on disk after `toImageBundle` fails midway is not
modelled here. -/
def SaveNode.callbackI (txt : K → K) (msg : CostMapMsg K) : Act (SaveNode K) Unit := fun s =>
  if s.finished then (.ok (), s)
  else
    match fromMessageI rd msg (CostMap.new []) with
    | (.ok true, m) =>
      match m.toImageBundle txt s.files with
      | .ok files => (.ok (), ⟨true, files, s.saves ++ [m]⟩)
      | .thrown e => (.thrown e, s)
      | .assertFail => (.assertFail, s)
      | .ub => (.ub, s)
      | .outOfFuel => (.outOfFuel, s)
    | (.ok false, _) => (.ok (), s)
    | (.thrown e, _) => (.thrown e, s)
    | (.assertFail, _) => (.assertFail, s)
    | (.ub, _) => (.ub, s)
    | (.outOfFuel, _) => (.outOfFuel, s)

/-- The messages received, one after the other (image_bundles.cpp 216-239). -/
def SaveNode.runI (txt : K → K) (msgs : List (CostMapMsg K)) : Act (SaveNode K) Unit :=
  Act.forEach (SaveNode.callbackI rd txt) msgs

/-- `LoadImageBundle::LoadImageBundle` and `publish` (image_bundles.cpp 189-214) once the file name is known: the published
message. -/
def loadImageBundleI (cv : Cv) (files : Files K) : Res (CostMapMsg K) :=
  match fromImageBundleI rd rf cv files (CostMap.new []) with
  | (.ok _, m) => m.toMessage
  | (.thrown e, _) => .thrown e
  | (.assertFail, _) => .assertFail
  | (.ub, _) => .ub
  | (.outOfFuel, _) => .outOfFuel

end CostMapModel
