import Verif.Model.Image

/-!
# Image bundles

Model of `fromImageBundle` and `toImageBundle` (cost_map_ros/src/lib/image_bundles.cpp 34-183): a YAML file with the
metadata and an image file per layer.
-/

namespace CostMapModel
variable {K : Type} [Field K] [LinearOrder K] [FloorRing K]

/-- An entry of `layers` in the YAML file; a missing key is `none`. -/
structure BundleLayer where
  layerName : Option String
  layerData : Option String
  deriving DecidableEq

/-- The content of the YAML file; a missing key is `none`. Values of a wrong type are not modelled. -/
structure Bundle (K : Type) where
  frameId : Option String
  centreX : Option K
  centreY : Option K
  resolution : Option K
  cellsX : Option Nat
  cellsY : Option Nat
  layers : Option (List BundleLayer)

/-- What `YAML::LoadFile` finds. -/
inductive YamlFile (K : Type) where
  | missing
  | unparsable
  | parsed (b : Bundle K)

/-- What `cv::imread(IMREAD_UNCHANGED)` returns for a readable file: 8-bit images with 1, 3 or 4 channels. Files with 16 bits
per channel are not modelled (image_bundles.cpp 97 treats them as 8-bit images). -/
inductive FileImage where
  | gray (p : Mat UInt8)
  | bgr (p : Mat (UInt8 × UInt8 × UInt8))
  | bgra (p : Mat (UInt8 × UInt8 × UInt8 × UInt8))

/-- A directory with the YAML file and the images, by the names relative to it. Writing to it succeeds, and different names
are different files. -/
structure Files (K : Type) where
  yaml : YamlFile K
  images : String → Option FileImage

/-- The ROS image made of a file (image_bundles.cpp 96-109). `imread` returns an empty matrix for a file it cannot read. -/
def FileImage.toImage : Option FileImage → Image
  | some (.gray p) => .mono8 p
  | some (.bgr p) => .bgr8 p
  | some (.bgra p) => .bgra8 p
  | none => .mono8 Mat.empty

/-- `std::map::insert`: sorted by key; an existing key is kept. -/
def mapInsert (k v : String) : List (String × String) → List (String × String)
  | [] => [(k, v)]
  | (k', v') :: ps =>
    if k < k' then (k, v) :: (k', v') :: ps else if k = k' then (k', v') :: ps else (k', v') :: mapInsert k v ps

/-- The loop over `layers` (image_bundles.cpp 59-72). -/
def readLayers : List BundleLayer → List (String × String) → Res (List (String × String))
  | [], acc => .ok acc
  | ⟨none, _⟩ :: _, _ => .thrown .logicError
  | ⟨some _, none⟩ :: _, _ => .thrown .logicError
  | ⟨some n, some d⟩ :: ls, acc => readLayers ls (mapInsert n d acc)

/-- The metadata read from the YAML file (image_bundles.cpp 39-75). -/
structure BundleInfo (K : Type) where
  frameId : String
  centre : Vec K
  resolution : K
  cellsX : Nat
  cellsY : Nat
  layers : List (String × String)

/-- image_bundles.cpp 45-75. `rf` is the rounding of the resolution to `float` (54). A file that does not exist is a
`YAML::BadFile`, a `std::runtime_error`. -/
def readInfo (rf : K → K) : YamlFile K → Res (BundleInfo K)
  | .missing => .thrown .runtimeError
  | .unparsable => .thrown .logicError
  | .parsed b =>
    match b.frameId, b.centreX, b.centreY, b.resolution, b.cellsX, b.cellsY with
    | some f, some cx, some cy, some r, some nx, some ny =>
      (readLayers (b.layers.getD []) []).bind fun ls => .ok ⟨f, ⟨cx, cy⟩, rf r, nx, ny, ls⟩
    | _, _, _, _, _, _ => .thrown .logicError

namespace CostMap

/-- The loop over the layers (image_bundles.cpp 86-132). The result of `addLayerFromROSImage` is ignored. -/
def loadLayer (cv : Cv) (files : Files K) (p : String × String) : Act (CostMap K) Unit :=
  Act.bind (addLayerFromImage cv (FileImage.toImage (files.images p.2)) p.1) fun _ => Act.pure ()

/-- `fromImageBundle` (image_bundles.cpp 34-133). `rf` is rounding to `float`: line 79 multiplies in `float`. -/
def fromImageBundle (cv : Cv) (rf : K → K) (files : Files K) : Act (CostMap K) Unit :=
  Act.bind (Act.lift (readInfo rf files.yaml)) fun b =>
  Act.bind (setGeometry ⟨rf (b.resolution * b.cellsX), rf (b.resolution * b.cellsY)⟩ b.resolution b.centre) fun _ =>
  Act.bind (Act.modify fun m => (m.setFrameId b.frameId).resetTimestamp) fun _ =>
  Act.forEach (loadLayer cv files) b.layers

end CostMap

/-- `flipped_value` (image_bundles.cpp 172). The product is between 0 and 255 for every cost, so the conversion is always
defined (`flipped_defined`). -/
def flippedDouble (c : Cost) : ℚ := toDouble (255 * toDouble (1 - toDouble ((c.toNat : ℚ) / (NO_INFORMATION.toNat : ℚ))))

/-- The pixel of a cell (image_bundles.cpp 168-176). -/
def savePixel (c : Cost) : UInt8 × UInt8 × UInt8 × UInt8 :=
  let v := UInt8.ofNat (truncToInt (flippedDouble c)).toNat
  (v, v, v, if c = NO_INFORMATION then 0 else 255)

namespace CostMap

/-- The loop over the layers (image_bundles.cpp 159-182). The image has the size of the map; a matrix of another size would
be written out of bounds or leave pixels uninitialised. -/
def saveLayers (m : CostMap K) : List String → (String → Option FileImage) → Res (String → Option FileImage)
  | [], images => .ok images
  | l :: ls, images =>
    (m.get l).bind fun a =>
      if (a.rows : Int) = m.size.x ∧ (a.cols : Int) = m.size.y then
        saveLayers m ls fun name => if name = l ++ ".png" then some (.bgra (a.mapIdx fun _ _ c => savePixel c)) else images name
      else .ub

/-- `toImageBundle` (image_bundles.cpp 135-183). `txt` is printing a `double` to the YAML file and reading it back, which
depends on the version of yaml-cpp. Line 142 writes the x coordinate as `centre_y`. -/
def toImageBundle (txt : K → K) (m : CostMap K) (files : Files K) : Res (Files K) :=
  (m.saveLayers m.layers files.images).bind fun images =>
    .ok { yaml := .parsed
            { frameId := some m.frameId
              centreX := some (txt m.position.x)
              centreY := some (txt m.position.x)
              resolution := some (txt m.resolution)
              cellsX := some m.size.x.toNat
              cellsY := some m.size.y.toNat
              layers := some (m.layers.map fun l => ⟨some l, some (l ++ ".png")⟩) }
          images := images }

end CostMap
end CostMapModel
