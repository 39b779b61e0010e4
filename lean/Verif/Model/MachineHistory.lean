import Verif.Model.History
import Verif.Model.MachineCostmap2D
import Verif.Model.MachineInflation
import Verif.Model.MachineMerge
import Verif.Model.MachineShapes
import Verif.Model.RoundedConversions

/-!
# Histories of a cost map on the machine

The calls of `Model/History.lean` with the arithmetic of the machine: `double`s are rounded after every operation, `int`s
overflow (`Res.ub`). Calls that compute no coordinates are those of `Model/History.lean`.
-/

namespace CostMapModel

namespace CostMap
variable {K : Type} [Field K] [LinearOrder K] [FloorRing K] (rd rf : K → K)

/-- `fromMessage` (converter.cpp 186-210), with the machine's `setGeometry`. -/
def fromMessageI (msg : CostMapMsg K) : Act (CostMap K) Bool :=
  Act.bind (Act.modify fun m => (m.setTimestamp (stampToNSec msg.stampSec msg.stampNsec)).setFrameId msg.frameId)
    fun _ =>
  Act.bind (setGeometryI rd ⟨msg.lengthX, msg.lengthY⟩ msg.resolution msg.position) fun _ =>
  if msg.layers.length ≠ msg.data.length then Act.pure false else
  Act.bind (Act.forEach addFromArray (msg.layers.zip msg.data)) fun _ =>
  Act.bind (Act.modify fun m => (m.setBasicLayers msg.basicLayers).setStartIndex
    ⟨msg.outerStartIndex.toNat, msg.innerStartIndex.toNat⟩) fun _ =>
  Act.pure true

/-- `addLayerFromROSImage` (converter.cpp 37-128), with the machine's iterator. -/
def addLayerFromImageI (cv : Cv) (img : Image) (l : String) : Act (CostMap K) Bool :=
  if ¬ img.readable then Act.pure false
  else
    Act.bind (addConst l NO_INFORMATION) fun _ => fun m =>
      if m.size.x ≠ img.height ∨ m.size.y ≠ img.width then (.ok false, m)
      else Act.bind (forCellsI (imageCell cv img l)) (fun _ => Act.pure true) m

/-- `fromImageBundle` (image_bundles.cpp 34-133), with the machine's `setGeometry` and iterator. Line 79 multiplies in `float`. -/
def fromImageBundleI (cv : Cv) (files : Files K) : Act (CostMap K) Unit :=
  Act.bind (Act.lift (readInfo rf files.yaml)) fun b =>
  Act.bind (setGeometryI rd ⟨rf (b.resolution * rf b.cellsX), rf (b.resolution * rf b.cellsY)⟩ b.resolution b.centre) fun _ =>
  Act.bind (Act.modify fun m => (m.setFrameId b.frameId).resetTimestamp) fun _ =>
  Act.forEach (fun p => Call.discard (addLayerFromImageI cv (FileImage.toImage (files.images p.2)) p.1)) b.layers

end CostMap

/-- One call with its arguments, which are numbers that the machine can represent. -/
inductive MachineCall (K : Type) where
  /-- A call that computes no coordinates (see `MachineCall.run`). -/
  | plain (c : Call K)
  /-- cost_map.cpp 43-62, 64-67. -/
  | setGeometry (length : Vec K) (resolution : K) (position : Vec K)
  /-- `map.atPosition(l, p) = v`, cost_map.cpp 161-168. -/
  | setAtPosition (l : String) (p : Vec K) (v : Cost)
  /-- cost_map.cpp 327-399. -/
  | move (position : Vec K)
  /-- cost_map.cpp 433-503. -/
  | extendToInclude (other : CostMap K)
  /-- cost_map.cpp 401-431. -/
  | addDataFrom (other : CostMap K) (extend overwrite copyAll : Bool) (ls : List String)
  /-- inflation.cpp 21-82, on an inflater that may have been used before. -/
  | inflate (obj : Inflater K) (pop : Inflation.Pop K) (hyp : Nat → Nat → K) (ls ld : String) (radius : K) (computer : K → Cost)
  /-- converter.cpp 186-214 (`fromMessage`). -/
  | fromMessage (msg : CostMapMsg K)
  /-- converter.cpp 37-128 (`addLayerFromROSImage`), on any image message. -/
  | addLayerFromImage (cv : Cv) (img : Image) (l : String)
  /-- image_bundles.cpp 34-133, with any files on disk. -/
  | fromImageBundle (cv : Cv) (files : Files K)
  /-- converter.cpp 216-227 (`fromCostmap2DROS`). -/
  | fromCostmap (c : Costmap2DROS K) (l : String)
  /-- converter.cpp 229-243 (`fromCostmap2DROSAtRobotPose`). -/
  | fromCostmapAtRobot (c : Costmap2DROS K) (geometry : Vec K) (l : String)

namespace MachineCall
variable {K : Type} [Field K] [LinearOrder K] [FloorRing K] (F : Fmt K) (rf : K → K)

/-- What a call does to the map; `F` is the format of `double`, `rf` rounding to `float`. -/
def run : MachineCall K → Act (CostMap K) Unit
  | plain c => c.run
  | setGeometry len r p => CostMap.setGeometryI F.rd len r p
  | setAtPosition l p v => CostMap.setAtPositionI F.rd l p v
  | move p => Call.discard (CostMap.moveI F.rd p)
  | extendToInclude o => Call.discard (CostMap.extendToIncludeI F.rd o)
  | addDataFrom o e w a ls => Call.discard (CostMap.addDataFromI F.rd o e w a ls)
  | inflate obj pop hyp ls ld r f => fun m =>
      let out := Inflation.inflateU F rf pop hyp ls ld (.fin r) f ⟨obj, m, []⟩
      (out.1, out.2.map)
  | fromMessage msg => Call.discard (CostMap.fromMessageI F.rd msg)
  | addLayerFromImage cv img l => Call.discard (CostMap.addLayerFromImageI cv img l)
  | fromImageBundle cv files => CostMap.fromImageBundleI F.rd rf cv files
  | fromCostmap c l => Call.discard (CostMap.fromCostmap2DROSI F.rd c l)
  | fromCostmapAtRobot c g l => Call.discard (CostMap.fromCostmap2DROSAtRobotPoseI F.rd c g l)

end MachineCall
end CostMapModel
