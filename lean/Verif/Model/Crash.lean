import Verif.Model.Bundle

/-!
# Saving step by step

`toImageBundle` (cost_map_ros/src/lib/image_bundles.cpp 135-183) writes one file after the other. This module lists what is in the
directory when it is interrupted.
-/

namespace CostMapModel
variable {K : Type} [Field K] [LinearOrder K] [FloorRing K]
namespace CostMap

/-- What line 139-153 put in the YAML file. -/
def savedYaml (txt : K → K) (m : CostMap K) : YamlFile K :=
  .parsed
    { frameId := some m.frameId
      centreX := some (txt m.position.x)
      centreY := some (txt m.position.x)
      resolution := some (txt m.resolution)
      cellsX := some m.size.x.toNat
      cellsY := some m.size.y.toNat
      layers := some (m.layers.map fun l => ⟨some l, some (l ++ ".png")⟩) }

/-- `files` with another image `f`. -/
def setImage (files : Files K) (name : String) (f : Option FileImage) : Files K :=
  { files with images := fun n => if n = name then f else files.images n }

/-- What is in the directory while the images of `ls` are written (image_bundles.cpp 160-182), from `files` on. `imwrite` truncates
the file before it writes it: in between it cannot be read. -/
def imageStates (m : CostMap K) : List String → Files K → List (Files K)
  | [], files => [files]
  | l :: ls, files =>
    match m.data l with
    | none => [files]
    | some a =>
      files :: setImage files (l ++ ".png") none ::
        imageStates m ls (setImage files (l ++ ".png") (some (.bgra (a.mapIdx fun _ _ c => savePixel c))))

/-- What is in the directory while `toImageBundle` runs: first the YAML file is truncated (154; an empty file lacks the required
keys, like one that cannot be parsed), then it is written (155-156), then the images are. A YAML file that was written in part is
not modelled. -/
def saveStates (txt : K → K) (m : CostMap K) (files : Files K) : List (Files K) :=
  files :: { files with yaml := .unparsable } :: m.imageStates m.layers { files with yaml := m.savedYaml txt }

end CostMap
end CostMapModel
