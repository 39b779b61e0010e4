import Verif.Model.Bundle
import Verif.Model.Ieee

/-!
# Any file as an image bundle

`Model/Bundle.lean` starts from the values of the keys. Here `fromImageBundle` (cost_map_ros/src/lib/image_bundles.cpp 34-133) is
modelled from the tree `YAML::LoadFile` returns, whatever is in it, with coordinates as IEEE 754 has them, and with image files of 8 or
16 bits per channel.

yaml-cpp is not part of the repository; its behaviour is the one of versions 0.5 and 0.6. Simplified: keys are text (a key that is a
list or a mapping is never equal to one the code asks for), and there are no aliases or tags.
-/

namespace CostMapModel

/-- A YAML value. -/
inductive Yaml where
  | null
  | scalar (s : String)
  | seq (l : List Yaml)
  | map (es : List (String × Yaml))

/-- What `YAML::LoadFile` finds. -/
inductive YamlDoc where
  | missing
  | unparsable
  | parsed (y : Yaml)

/-- How yaml-cpp converts text, and what it makes of an empty value that should be text (nothing up to version 0.6, `"null"` from 0.7
on). -/
structure Reader (K : Type) where
  null : Option String
  float : String → Option (Dbl K)
  double : String → Option (Dbl K)
  uint : String → Option Nat

namespace Yaml

/-- `node[key]` with a text as key (image_bundles.cpp 49, 53-57, 58, 61-69); `none` is a node that is not defined. A scalar throws
`YAML::BadSubscript`, a `std::runtime_error`. -/
def get (y : Yaml) (k : String) : Res (Option Yaml) :=
  match y with
  | .scalar _ => .thrown .runtimeError
  | .map es => .ok (es.lookup k)
  | .null | .seq _ => .ok none

/-- The loop over the required keys (image_bundles.cpp 46-52). -/
def require (y : Yaml) : List String → Res Unit
  | [] => .ok ()
  | k :: ks => (y.get k).bind fun v => if v.isNone then .thrown .logicError else y.require ks

end Yaml

namespace Reader
variable {K : Type} (rd : Reader K)

/-- `node.as<std::string>()` (53, 68, 69). What does not convert throws `YAML::TypedBadConversion`, a `std::runtime_error`. -/
def text : Option Yaml → Res String
  | some (.scalar s) => .ok s
  | some .null => match rd.null with
    | some s => .ok s
    | none => .thrown .runtimeError
  | _ => .thrown .runtimeError

/-- `node.as<T>()` for the number types (54-57). -/
def number {α : Type} (conv : String → Option α) : Option Yaml → Res α
  | some (.scalar s) => match conv s with
    | some v => .ok v
    | none => .thrown .runtimeError
  | _ => .thrown .runtimeError

/-- `config["layers"][index]` for each `index < config["layers"].size()` (58-60). A mapping is asked for the key that reads as the
index; `size()` of text or of an empty value is 0. -/
def items : Option Yaml → List (Option Yaml)
  | some (.seq l) => l.map some
  | some (.map es) => (List.range es.length).map fun i => (es.find? fun e => rd.uint e.1 == some i).map Prod.snd
  | _ => []

/-- One round of the loop (image_bundles.cpp 60-70). -/
def item : Option Yaml → Res (String × String)
  | none => .thrown .logicError
  | some y =>
    (y.get "layer_name").bind fun n => if n.isNone then .thrown .logicError else
    (y.get "layer_data").bind fun d => if d.isNone then .thrown .logicError else
    (rd.text n).bind fun n => (rd.text d).bind fun d => .ok (n, d)

/-- The loop over the layers (image_bundles.cpp 59-72). -/
def readItems : List (Option Yaml) → List (String × String) → Res (List (String × String))
  | [], acc => .ok acc
  | y :: ys, acc => (rd.item y).bind fun p => readItems ys (mapInsert p.1 p.2 acc)

/-- The metadata of a tree (image_bundles.cpp 46-72). -/
def readTree (y : Yaml) : Res (BundleInfo (Dbl K)) :=
  (y.require ["frame_id", "centre_x", "centre_y", "resolution", "number_of_cells_x", "number_of_cells_y"]).bind fun _ =>
  (y.get "frame_id").bind fun v => (rd.text v).bind fun frame =>
  (y.get "resolution").bind fun v => (number rd.float v).bind fun res =>
  (y.get "number_of_cells_x").bind fun v => (number rd.uint v).bind fun nx =>
  (y.get "number_of_cells_y").bind fun v => (number rd.uint v).bind fun ny =>
  (y.get "centre_x").bind fun v => (number rd.double v).bind fun cx =>
  (y.get "centre_y").bind fun v => (number rd.double v).bind fun cy =>
  (y.get "layers").bind fun ls => (rd.readItems (rd.items ls) []).bind fun layers =>
  .ok ⟨frame, ⟨cx, cy⟩, res, nx, ny, layers⟩

/-- The metadata of a file (image_bundles.cpp 44-75). A file that does not exist is a `YAML::BadFile`, a `std::runtime_error` that is
not a `YAML::ParserException`. -/
def readDoc : YamlDoc → Res (BundleInfo (Dbl K))
  | .missing => .thrown .runtimeError
  | .unparsable => .thrown .logicError
  | .parsed y => rd.readTree y

end Reader

/-- What `cv::imread(IMREAD_UNCHANGED)` returns for a readable file: 8 or 16 bits per channel. -/
inductive AnyFile where
  | eight (f : FileImage)
  | gray16 (p : Mat UInt16)
  | bgr16 (p : Mat (UInt16 × UInt16 × UInt16))
  | bgra16 (p : Mat (UInt16 × UInt16 × UInt16 × UInt16))

/-- The first (`k = 0`) or second byte of a 16-bit number in memory. -/
def Cv.byteOf (cv : Cv) (v : UInt16) (k : Nat) : UInt8 :=
  UInt8.ofNat (if (k = 0) ↔ (cv.bigEndian = true) then v.toNat / 256 else v.toNat % 256)

/-- The byte number `k` of a row of `ch` channels of 16 bits: the channel `(k / 2) % ch` of the pixel `k / 2 / ch`. -/
def Cv.rowByte (cv : Cv) (ch : Nat) (row : Nat → Nat → UInt16) (k : Nat) : UInt8 :=
  cv.byteOf (row (k / 2 / ch) (k / 2 % ch)) (k % 2)

namespace AnyFile

/-- The channels of the pixel in row `i` and column `j`; 0 outside of the image. -/
def channel1 (p : Mat UInt16) (i : Int) (j _c : Nat) : UInt16 := (p.get? i j).getD 0

/-- The channels of the pixel in row `i` and column `j`; 0 outside of the image. -/
def channel3 (p : Mat (UInt16 × UInt16 × UInt16)) (i : Int) (j c : Nat) : UInt16 :=
  match p.get? i j with
  | none => 0
  | some v => if c = 0 then v.1 else if c = 1 then v.2.1 else v.2.2

/-- The channels of the pixel in row `i` and column `j`; 0 outside of the image. -/
def channel4 (p : Mat (UInt16 × UInt16 × UInt16 × UInt16)) (i : Int) (j c : Nat) : UInt16 :=
  match p.get? i j with
  | none => 0
  | some v => if c = 0 then v.1 else if c = 1 then v.2.1 else if c = 2 then v.2.2.1 else v.2.2.2

/-- The pixels the ROS image of a file has (image_bundles.cpp 96-109): the encoding says 8 bits whatever the file has, the width is
the one of the file, and a row is as long as its bytes in memory. -/
def as8 (cv : Cv) : AnyFile → FileImage
  | eight f => f
  | gray16 p => .gray (.ofFn p.rows p.cols fun i j => cv.rowByte 1 (channel1 p i) j.toNat)
  | bgr16 p => .bgr (.ofFn p.rows p.cols fun i j =>
      (cv.rowByte 3 (channel3 p i) (3 * j.toNat), cv.rowByte 3 (channel3 p i) (3 * j.toNat + 1),
        cv.rowByte 3 (channel3 p i) (3 * j.toNat + 2)))
  | bgra16 p => .bgra (.ofFn p.rows p.cols fun i j =>
      (cv.rowByte 4 (channel4 p i) (4 * j.toNat), cv.rowByte 4 (channel4 p i) (4 * j.toNat + 1),
        cv.rowByte 4 (channel4 p i) (4 * j.toNat + 2), cv.rowByte 4 (channel4 p i) (4 * j.toNat + 3)))

end AnyFile

/-- A directory with the YAML file and the images, by the names relative to it. -/
structure AnyFiles where
  yaml : YamlDoc
  images : String → Option AnyFile

/-- The images as the loop of `fromImageBundle` sees them. -/
def AnyFiles.as8 {K : Type} (cv : Cv) (files : AnyFiles) : Files K := ⟨.missing, fun name => (files.images name).map (·.as8 cv)⟩

namespace CostMap
variable {K : Type} [Field K] [LinearOrder K] [FloorRing K]

/-- `fromImageBundle` (image_bundles.cpp 34-133). `F` is `double`, `Ff` is `float`: line 79 multiplies in `float`. -/
def loadBundle (F Ff : Fmt K) (rd : Reader K) (cv : Cv) (files : AnyFiles) : Act (CostMap (Dbl K)) Unit :=
  Act.bind (Act.lift (rd.readDoc files.yaml)) fun b =>
  Act.bind (setGeometryD F
    ⟨.mul Ff b.resolution (.round Ff (b.cellsX : K)), .mul Ff b.resolution (.round Ff (b.cellsY : K))⟩ b.resolution b.centre) fun _ =>
  Act.bind (Act.modify fun m => (m.setFrameId b.frameId).resetTimestamp) fun _ =>
  Act.forEach (loadLayer cv (files.as8 cv)) b.layers

end CostMap
end CostMapModel
