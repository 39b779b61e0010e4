import Verif.Model.Image

/-!
# Specification vocabulary: what an image says about a cell
-/

namespace CostMapModel

/-- ⌊254 * (1 - gray/depth)⌋. -/
def grayCost (depth gray : Nat) : Cost := UInt8.ofNat (254 * (depth - gray) / depth)

/-- The cost the pixel of cell `i` stands for: unknown where it is more transparent than opaque, otherwise the cost of its
gray value, which for colours is the conversion of OpenCV. `none` outside the image and for unknown encodings. -/
def Image.costAt (cv : Cv) (img : Image) (i : Idx) : Option Cost :=
  match img with
  | .mono8 p => (p.get? i.x i.y).map fun v => grayCost 256 v.toNat
  | .bgr8 p => (p.get? i.x i.y).map fun (b, g, r) => grayCost 256 (cv.gray8 b g r).toNat
  | .bgra8 p => (p.get? i.x i.y).map fun (b, g, r, a) =>
      if a < 128 then NO_INFORMATION else grayCost 256 (cv.gray8 b g r).toNat
  | .mono16 p => (p.get? i.x i.y).map fun v => grayCost 65536 v.toNat
  | .bgr16 p => (p.get? i.x i.y).map fun (b, g, r) => grayCost 65536 (cv.gray16 b g r).toNat
  | .bgra16 p => (p.get? i.x i.y).map fun (b, g, r, a) =>
      if a < 32768 then NO_INFORMATION else grayCost 65536 (cv.gray16 b g r).toNat
  | _ => none

/-- Images with 8 bits per channel. -/
def Image.Is8 : Image → Prop
  | .mono8 _ => True
  | .bgr8 _ => True
  | .bgra8 _ => True
  | _ => False

/-- Images with 16 bits per channel. -/
def Image.Is16 : Image → Prop
  | .mono16 _ => True
  | .bgr16 _ => True
  | .bgra16 _ => True
  | _ => False

/-- The two bytes of a 16-bit number exchanged. -/
def swap16 (v : UInt16) : UInt16 := UInt16.ofNat (v.toNat % 256 * 256 + v.toNat / 256)

/-- Gray stays gray. -/
structure Cv.GrayOk (cv : Cv) : Prop where
  gray8 : ∀ v, cv.gray8 v v v = v
  gray16 : ∀ v, cv.gray16 v v v = v

end CostMapModel
