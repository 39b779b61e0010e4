import Verif.Model.Merge
import Verif.Model.Float
import Mathlib.Data.Rat.Floor

/-!
# Images as layers

Model of `addLayerFromROSImage` (cost_map_ros/src/lib/converter.cpp 37-123).
-/

namespace CostMapModel
variable {K : Type} [Field K] [LinearOrder K] [FloorRing K]

/-- `sensor_msgs/Image` by encoding, with the pixels cv_bridge finds in it (rows are the image's height, columns its width;
channels in the order of the encoding's name). `other` is any other encoding, `malformed` an image of one of the known
encodings that cv_bridge rejects because its `step` or data size is wrong. -/
inductive Image where
  | mono8 (p : Mat UInt8)
  | bgr8 (p : Mat (UInt8 × UInt8 × UInt8))
  | bgra8 (p : Mat (UInt8 × UInt8 × UInt8 × UInt8))
  | mono16 (p : Mat UInt16)
  | bgr16 (p : Mat (UInt16 × UInt16 × UInt16))
  | bgra16 (p : Mat (UInt16 × UInt16 × UInt16 × UInt16))
  | other (height width : Nat)
  | malformed (height width : Nat)

namespace Image

/-- `image.height`. -/
def height : Image → Nat
  | mono8 p => p.rows
  | bgr8 p => p.rows
  | bgra8 p => p.rows
  | mono16 p => p.rows
  | bgr16 p => p.rows
  | bgra16 p => p.rows
  | other h _ => h
  | malformed h _ => h

/-- `image.width`. -/
def width : Image → Nat
  | mono8 p => p.cols
  | bgr8 p => p.cols
  | bgra8 p => p.cols
  | mono16 p => p.cols
  | bgr16 p => p.cols
  | bgra16 p => p.cols
  | other _ w => w
  | malformed _ w => w

/-- Whether the conversions at lines 45-82 succeed. -/
def readable : Image → Bool
  | other _ _ => false
  | malformed _ _ => false
  | _ => true

/-- `depth` (59, 67). -/
def depth : Image → Nat
  | mono16 _ => 65536
  | bgr16 _ => 65536
  | bgra16 _ => 65536
  | _ => 256

end Image

/-- What the code uses of OpenCV and of the machine: the conversions of colours to gray (`cvtColor`, called by cv_bridge) and
the byte order. -/
structure Cv where
  gray8 : UInt8 → UInt8 → UInt8 → UInt8
  gray16 : UInt16 → UInt16 → UInt16 → UInt16
  bigEndian : Bool

/-- The first byte times 256 plus the second byte of a 16-bit number in memory (converter.cpp 104, 117). -/
def Cv.read16 (cv : Cv) (v : UInt16) : Nat :=
  if cv.bigEndian then v.toNat / 256 * 256 + v.toNat % 256 else v.toNat % 256 * 256 + v.toNat / 256

/-- `grayValue` of the pixel of a cell, `none` if it is transparent (converter.cpp 93-118). Reading outside the image is
undefined behaviour. -/
def Image.sample (cv : Cv) (img : Image) (i : Idx) : Res (Option Nat) :=
  match img with
  | .mono8 p => (Res.ofOption (p.get? i.x i.y)).map fun v => some v.toNat
  | .bgr8 p => (Res.ofOption (p.get? i.x i.y)).map fun v => some (cv.gray8 v.1 v.2.1 v.2.2).toNat
  | .bgra8 p => (Res.ofOption (p.get? i.x i.y)).map fun v =>
      if v.2.2.2.toNat < 256 / 2 then none else some (cv.gray8 v.1 v.2.1 v.2.2.1).toNat
  | .mono16 p => (Res.ofOption (p.get? i.x i.y)).map fun v => some (cv.read16 v)
  | .bgr16 p => (Res.ofOption (p.get? i.x i.y)).map fun v => some (cv.read16 (cv.gray16 v.1 v.2.1 v.2.2))
  | .bgra16 p => (Res.ofOption (p.get? i.x i.y)).map fun v =>
      if cv.read16 v.2.2.2 < 65536 / 2 then none else some (cv.read16 (cv.gray16 v.1 v.2.1 v.2.2.1))
  | .other _ _ => .ub
  | .malformed _ _ => .ub

/-- Conversion of a `double` to `unsigned char`: truncation, undefined behaviour out of range. -/
def toUChar (v : ℚ) : Res Cost :=
  let t := truncToInt v
  if 0 ≤ t ∧ t ≤ 255 then .ok (UInt8.ofNat t.toNat) else .ub

/-- The cost of a gray value as a `double` (converter.cpp 121). -/
def grayDouble (depth g : Nat) : ℚ := toDouble (254 * toDouble (1 - toDouble ((g : ℚ) / depth)))

namespace CostMap

/-- Loop body (converter.cpp 92-123). -/
def imageCell (cv : Cv) (img : Image) (l : String) (i : Idx) : Act (CostMap K) Unit :=
  Act.bind (Act.lift (img.sample cv i)) fun s =>
  match s with
  | none => Act.pure ()
  | some g => Act.bind (Act.lift (toUChar (grayDouble img.depth g))) fun v => setAt l i v

/-- `addLayerFromROSImage` (converter.cpp 37-126). -/
def addLayerFromImage (cv : Cv) (img : Image) (l : String) : Act (CostMap K) Bool :=
  if ¬ img.readable then Act.pure false
  else
    Act.bind (addConst l NO_INFORMATION) fun _ => fun m =>
      if m.size.x ≠ img.height ∨ m.size.y ≠ img.width then (.ok false, m)
      else Act.bind (forCells (imageCell cv img l)) (fun _ => Act.pure true) m

end CostMap
end CostMapModel
