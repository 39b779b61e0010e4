import Verif.Model.YamlCrash
import Verif.Spec.AnyBundle

/-!
# What a YAML file that was written in part may say
-/

namespace CostMapModel

/-- The list `ls'` is a beginning of `ls`; the file name in its last entry may be cut off, or be what the reader has for nothing. -/
def CutLayers {K : Type} (rd : Reader K) (ls ls' : List (String × String)) : Prop :=
  ∃ k, ls' = ls.take k ∨ ∃ name file t, ls[k]? = some (name, file) ∧ (t.toList <+: file.toList ∨ rd.null = some t) ∧
    ls' = ls.take k ++ [(name, t)]

/-- `d'` is `d`, except that the number of cells along y may be the one of a beginning of its text, and then there are no layers; and
the list of layers may end early. -/
structure CutDescription {K : Type} (rd : Reader K) (text : String) (d d' : Description K) : Prop where
  frame : d'.frame = d.frame
  centre : d'.centre = d.centre
  resolution : d'.resolution = d.resolution
  cellsX : d'.cellsX = d.cellsX
  cellsY : d'.cellsY = d.cellsY ∨ (d'.layers = [] ∧ ∃ t : String, t.toList <+: text.toList ∧ rd.uint t = some d'.cellsY)
  layers : CutLayers rd d.layers d'.layers

end CostMapModel
