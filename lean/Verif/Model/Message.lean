import Verif.Model.Merge

/-!
# Messages

Model of `toMessage` and `fromMessage` (cost_map_ros/src/lib/converter.cpp 154-210), of cost_map_msgs/msg/CostMap.msg and
of the library functions they call. Integer fields have the width of the message definition. Coordinates are exact and
finite: infinities and NaN in messages are not modelled.
-/

namespace CostMapModel

/-- `std_msgs/MultiArrayDimension`. -/
structure MultiArrayDim where
  label : String
  size : UInt32
  stride : UInt32
  deriving DecidableEq, Repr

/-- `std_msgs/UInt8MultiArray`. -/
structure MultiArray where
  dim : List MultiArrayDim
  dataOffset : UInt32
  data : List Cost
  deriving DecidableEq, Repr

/-- `cost_map_msgs/CostMap` (cost_map_msgs/msg/CostMap.msg); the fields of `info` (grid_map_msgs/GridMapInfo) are
inlined, and the parts of the pose that are always the same (converter.cpp 165-169) are left out. -/
structure CostMapMsg (K : Type) where
  stampSec : UInt32
  stampNsec : UInt32
  frameId : String
  resolution : K
  lengthX : K
  lengthY : K
  position : Vec K
  layers : List String
  basicLayers : List String
  data : List MultiArray
  outerStartIndex : UInt16
  innerStartIndex : UInt16
  deriving DecidableEq

/-- `ros::Time::fromNSec` (external; called at converter.cpp 158, 247): seconds and nanoseconds, a
`std::runtime_error` if the seconds do not fit 32 bits. -/
def stampOf (t : Nat) : Res (UInt32 × UInt32) :=
  if t / 1000000000 < 2 ^ 32 then .ok (UInt32.ofNat (t / 1000000000), UInt32.ofNat (t % 1000000000))
  else .thrown .runtimeError

/-- `ros::Time::toNSec` (external; called at converter.cpp 188). -/
def stampToNSec (sec nsec : UInt32) : Nat := sec.toNat * 1000000000 + nsec.toNat

namespace MultiArray

/-- `grid_map::matrixEigenCopyToMultiArrayMessage` (external template in grid_map_ros/GridMapMsgHelpers.hpp; called at
converter.cpp 178) on a column-major matrix and a new message. -/
def ofMat (a : Mat Cost) : MultiArray where
  dim := [⟨"column_index", UInt32.ofNat a.cols, UInt32.ofNat (a.rows * a.cols)⟩,
    ⟨"row_index", UInt32.ofNat a.rows, UInt32.ofNat a.rows⟩]
  dataOffset := 0
  data := a.data

/-- `grid_map::isRowMajor` (external): reading `dim[0]` of an empty vector is undefined behaviour; an unknown label
counts as column major. -/
def isRowMajor (m : MultiArray) : Res Bool :=
  match m.dim with
  | [] => .ub
  | d :: _ => .ok (decide (d.label = "row_index"))

/-- `layout.dim.at(i).size`. -/
def dimSize (m : MultiArray) (i : Nat) : Res Nat :=
  match m.dim[i]? with
  | some d => .ok d.size.toNat
  | none => .thrown .outOfRange

/-- `Eigen::Map<const Matrix>(data, rows, cols)` of the data: reading beyond its end is undefined behaviour. -/
def mapData (data : List Cost) (rows cols : Nat) : Res (Mat Cost) :=
  if h : rows * cols ≤ data.length then .ok ⟨rows, cols, data.take (rows * cols), by simp [h]⟩ else .ub

/-- `grid_map::multiArrayMessageCopyToMatrixEigen` (external; called at converter.cpp 202) into a default constructed
matrix: the matrix after the call. The return value is not used by the caller; for a row-major message the function
fails and leaves the matrix empty. -/
def toMat (m : MultiArray) : Res (Mat Cost) :=
  m.isRowMajor.bind fun r =>
    if r then .ok Mat.empty
    else (m.dimSize 1).bind fun rows => (m.dimSize 0).bind fun cols => mapData m.data rows cols

end MultiArray

namespace CostMap
variable {K : Type} [Field K] [LinearOrder K] [FloorRing K]

/-- The loop over the layers in `toMessage` (converter.cpp 175-180). -/
def layerArrays (m : CostMap K) : List String → Res (List MultiArray)
  | [] => .ok []
  | l :: ls => (m.get l).bind fun a => (m.layerArrays ls).bind fun as => .ok (MultiArray.ofMat a :: as)

/-- `toMessage` (converter.cpp 154-184). The start index is narrowed to 16 bits. -/
def toMessage (m : CostMap K) : Res (CostMapMsg K) :=
  (stampOf m.timestamp).bind fun t =>
  (m.layerArrays m.layers).bind fun data =>
    .ok { stampSec := t.1, stampNsec := t.2, frameId := m.frameId, resolution := m.resolution,
          lengthX := m.length.x, lengthY := m.length.y, position := m.position,
          layers := m.layers, basicLayers := m.basicLayers, data := data,
          outerStartIndex := UInt16.ofInt m.startIndex.x, innerStartIndex := UInt16.ofInt m.startIndex.y }

/-- Body of the loop over the layers in `fromMessage` (converter.cpp 199-204). -/
def addFromArray (p : String × MultiArray) : Act (CostMap K) Unit :=
  Act.bind (Act.lift p.2.toMat) fun a => add p.1 a

/-- `fromMessage` (converter.cpp 186-210). -/
def fromMessage (msg : CostMapMsg K) : Act (CostMap K) Bool :=
  Act.bind (Act.modify fun m => (m.setTimestamp (stampToNSec msg.stampSec msg.stampNsec)).setFrameId msg.frameId)
    fun _ =>
  Act.bind (setGeometry ⟨msg.lengthX, msg.lengthY⟩ msg.resolution msg.position) fun _ =>
  if msg.layers.length ≠ msg.data.length then Act.pure false else
  Act.bind (Act.forEach addFromArray (msg.layers.zip msg.data)) fun _ =>
  Act.bind (Act.modify fun m => (m.setBasicLayers msg.basicLayers).setStartIndex
    ⟨msg.outerStartIndex.toNat, msg.innerStartIndex.toNat⟩) fun _ =>
  Act.pure true

end CostMap
end CostMapModel
