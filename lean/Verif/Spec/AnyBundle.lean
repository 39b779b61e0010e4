import Verif.Model.AnyBundle
import Verif.Spec.Geometry
import Verif.Spec.Image
import Verif.Spec.Ieee

/-!
# What a YAML file says about a map
-/

namespace CostMapModel

/-- Rounds as `float` does; numbers up to `2^64` are not too large. -/
structure Fmt.Single {K : Type} [Field K] [LinearOrder K] (F : Fmt K) : Prop where
  rd : ∀ x, 0 < x → |F.rd x - x| ≤ x / 2 ^ 24
  zero : F.rd 0 = 0
  top : 2 ^ 64 ≤ F.top

/-- The tree is a mapping, and `v` is the value of its first entry with the key `k`. -/
def Yaml.Field (y : Yaml) (k : String) (v : Yaml) : Prop :=
  ∃ before after, y = .map (before ++ (k, v) :: after) ∧ k ∉ before.map Prod.fst

/-- The keys a bundle must have. -/
def bundleKeys : List String := ["frame_id", "centre_x", "centre_y", "resolution", "number_of_cells_x", "number_of_cells_y"]

/-- What a bundle says about a map: `layers` lists names and image files in the order of the file. -/
structure Description (K : Type) where
  frame : String
  centre : Vec (Dbl K)
  resolution : Dbl K
  cellsX : Nat
  cellsY : Nat
  layers : List (String × String)

namespace Reader
variable {K : Type} (rd : Reader K)

/-- The value reads as the text `s`. -/
def IsText (v : Yaml) (s : String) : Prop := v = .scalar s ∨ (v = .null ∧ rd.null = some s)

/-- `vs` are the values of a list; or of a mapping with the keys 0, 1, 2 and so on; text and an empty value have none. -/
def IsList (y : Yaml) (vs : List Yaml) : Prop :=
  match y with
  | .seq l => vs = l
  | .map es => vs.length = es.length ∧ ∀ i (h : i < vs.length), ∃ before k after, es = before ++ (k, vs[i]) :: after ∧
      rd.uint k = some i ∧ ∀ e ∈ before, rd.uint e.1 ≠ some i
  | .scalar _ | .null => vs = []

/-- The value names a layer and its image. -/
def IsLayer (y : Yaml) (p : String × String) : Prop :=
  ∃ n d, y.Field "layer_name" n ∧ rd.IsText n p.1 ∧ y.Field "layer_data" d ∧ rd.IsText d p.2

/-- The tree says `d`, as far as the six keys are concerned. -/
structure SaysKeys (y : Yaml) (d : Description K) : Prop where
  frame : ∃ v, y.Field "frame_id" v ∧ rd.IsText v d.frame
  centre_x : ∃ s, y.Field "centre_x" (.scalar s) ∧ rd.double s = some d.centre.x
  centre_y : ∃ s, y.Field "centre_y" (.scalar s) ∧ rd.double s = some d.centre.y
  resolution : ∃ s, y.Field "resolution" (.scalar s) ∧ rd.float s = some d.resolution
  cells_x : ∃ s, y.Field "number_of_cells_x" (.scalar s) ∧ rd.uint s = some d.cellsX
  cells_y : ∃ s, y.Field "number_of_cells_y" (.scalar s) ∧ rd.uint s = some d.cellsY

/-- The tree says `d`. -/
structure Says (y : Yaml) (d : Description K) : Prop extends rd.SaysKeys y d where
  layers : ((∀ v, ¬ y.Field "layers" v) ∧ d.layers = []) ∨
    ∃ v vs, y.Field "layers" v ∧ rd.IsList v vs ∧ List.Forall₂ rd.IsLayer vs d.layers

end Reader

open CostMap

/-- The layer `l` of `m` is what the image file shows: the costs its pixels stand for when it can be read and has the size of the
map, otherwise nothing is known. -/
def ShowsImage {K : Type} (cv : Cv) (file : Option FileImage) (m : CostMap K) (l : String) : Prop :=
  (∀ img, file = some img → (FileImage.toImage (some img)).height = m.size.x → (FileImage.toImage (some img)).width = m.size.y →
    ∀ i, i.In m.size → ∃ c, (FileImage.toImage (some img)).costAt cv i = some c ∧ m.at l i = .ok c) ∧
  ((∀ img, file = some img → ¬ ((FileImage.toImage (some img)).height = m.size.x ∧
      (FileImage.toImage (some img)).width = m.size.y)) →
    ∀ i, i.In m.size → m.at l i = .ok NO_INFORMATION)

/-- `m'` is what loading the bundle into `e` leaves: the frame, centre and resolution the bundle says, at least one cell, every layer
the bundle lists, with the cost its image shows (the first entry counts when a name is listed twice), and the layers of `e`, unknown
unless the bundle lists them. -/
structure Loaded {K : Type} (cv : Cv) (images : String → Option FileImage) (d : Description K) (e m' : CostMap (Dbl K)) : Prop where
  coherent : m'.Coherent
  frame : m'.frameId = d.frame
  timestamp : m'.timestamp = 0
  position : m'.position = d.centre
  resolution : m'.resolution = d.resolution
  size_x : 0 < m'.size.x
  size_y : 0 < m'.size.y
  startIndex : m'.startIndex = 0
  basicLayers : m'.basicLayers = e.basicLayers
  layers : ∀ l, l ∈ m'.layers ↔ l ∈ e.layers ∨ l ∈ d.layers.map Prod.fst
  old : ∀ l, l ∈ e.layers → l ∉ d.layers.map Prod.fst → ∀ i, i.In m'.size → m'.at l i = .ok NO_INFORMATION
  new : ∀ l f, d.layers.lookup l = some f → ShowsImage cv (images f) m' l

end CostMapModel
