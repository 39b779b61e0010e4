import Verif.Model.Crash
import Verif.Spec.Image
import Verif.Spec.Geometry

/-!
# What a directory after an interrupted save shows
-/

namespace CostMapModel
open CostMap
variable {K : Type} [Field K] [LinearOrder K] [FloorRing K]

/-- The layer `l` of `m` is what the image file shows: the costs its pixels stand for when it can be read and has the size of the
map, otherwise nothing is known. -/
def ShowsFile (cv : Cv) (file : Option FileImage) (m : CostMap K) (l : String) : Prop :=
  ((∃ img, file = some img ∧ (FileImage.toImage (some img)).height = m.size.x ∧ (FileImage.toImage (some img)).width = m.size.y) →
    ∀ i, i.In m.size → ∃ c, (FileImage.toImage file).costAt cv i = some c ∧ m.at l i = .ok c) ∧
  ((¬ ∃ img, file = some img ∧ (FileImage.toImage (some img)).height = m.size.x ∧
      (FileImage.toImage (some img)).width = m.size.y) →
    ∀ i, i.In m.size → m.at l i = .ok NO_INFORMATION)

/-- `m'` is `full`, except for the layers `rest`: those show the files of the earlier directory `old`; but when `broken`, the first
of them is unknown. -/
structure Mixture (cv : Cv) (old : Files K) (full m' : CostMap K) (rest : List String) (broken : Bool) : Prop where
  geometry : SameGeometry full m'
  metadata : SameMeta full m'
  layers : m'.layers = full.layers
  new : ∀ l, l ∉ rest → ∀ i, m'.at l i = full.at l i
  torn : broken = true → ∀ l, rest.head? = some l → ∀ i, i.In m'.size → m'.at l i = .ok NO_INFORMATION
  old : ∀ l ∈ rest, (broken = true → rest.head? ≠ some l) → ShowsFile cv (old.images (l ++ ".png")) m' l

end CostMapModel
