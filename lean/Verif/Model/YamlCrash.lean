import Verif.Model.AnyBundle
import Verif.Model.Crash

/-!
# A YAML file that was written in part

`Model/Crash.lean` leaves out what is in the YAML file while line 155 of cost_map_ros/src/lib/image_bundles.cpp writes it. Here the file
may end anywhere.
-/

namespace CostMapModel

/-- How yaml-cpp writes numbers. -/
structure Writer (K : Type) where
  double : K → String
  int : Int → String

/-- The tree `toImageBundle` writes (image_bundles.cpp 139-153). Line 142 writes the x coordinate as `centre_y`. The entries of a
mapping are written in the order they were made in. Simplified: the tree is read back as it was written. -/
def CostMap.savedTree {K : Type} (w : Writer K) (m : CostMap K) : Yaml := .map
  [("frame_id", .scalar m.frameId),
   ("centre_x", .scalar (w.double m.position.x)),
   ("centre_y", .scalar (w.double m.position.x)),
   ("resolution", .scalar (w.double m.resolution)),
   ("number_of_cells_x", .scalar (w.int m.size.x)),
   ("number_of_cells_y", .scalar (w.int m.size.y)),
   ("layers", match m.layers with
     | [] => .null
     | ls => .seq (ls.map fun l => .map [("layer_name", .scalar l), ("layer_data", .scalar (l ++ ".png"))]))]

/-- What may be read from a beginning of the text of a tree, if it can be parsed: values are left out from the end, and the last one
that is there may be cut itself. This allows more than yaml-cpp makes of such texts (it rejects a quoted text without its end, for
example). -/
inductive Yaml.Cut : Yaml → Yaml → Prop
  | none (y : Yaml) : Cut y .null
  | scalar {s t : String} : t.toList <+: s.toList → Cut (.scalar s) (.scalar t)
  | seq (l : List Yaml) (k : Nat) : Cut (.seq l) (.seq (l.take k))
  | seqLast {l : List Yaml} {k : Nat} {v v' : Yaml} : l[k]? = some v → Cut v v' → Cut (.seq l) (.seq (l.take k ++ [v']))
  | key {k t : String} {v : Yaml} {es : List (String × Yaml)} : t.toList <+: k.toList → Cut (.map ((k, v) :: es)) (.scalar t)
  | map (es : List (String × Yaml)) (k : Nat) : Cut (.map es) (.map (es.take k))
  | mapLast {es : List (String × Yaml)} {k : Nat} {n : String} {v v' : Yaml} : es[k]? = some (n, v) → Cut v v' →
      Cut (.map es) (.map (es.take k ++ [(n, v')]))

/-- What is in the directory while line 155 runs, or when the program ended there: the images are still those from before. -/
inductive WhileWritingYaml {K : Type} (w : Writer K) (m : CostMap K) (old : AnyFiles) : AnyFiles → Prop
  | unparsable : WhileWritingYaml w m old ⟨.unparsable, old.images⟩
  | cut {y : Yaml} : (m.savedTree w).Cut y → WhileWritingYaml w m old ⟨.parsed y, old.images⟩

end CostMapModel
