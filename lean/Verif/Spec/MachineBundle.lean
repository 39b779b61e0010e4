import Verif.Spec.MachineHistory
import Verif.Model.MachineBundle

/-!
# Specification vocabulary: image bundles on the machine
-/

namespace CostMapModel
variable {K : Type} [Field K] [LinearOrder K] [FloorRing K]

/-- A map of which a bundle can be made that fits the world when it is read: `txt` is writing a number to the file and reading it
back, `rf` rounding to `float`. The resolution that is read is not too small, the map with it is smaller than the world by three
cells, and the centre that is read lies in the world. -/
structure World.Saves (w : World K) (rf txt : K → K) (m : CostMap K) : Prop where
  cell : w.cell ≤ rf (txt m.resolution)
  text : 0 < txt m.resolution
  high_x : ((m.size.x : K) + 3) * rf (txt m.resolution) ≤ w.size
  high_y : ((m.size.y : K) + 3) * rf (txt m.resolution) ≤ w.size
  centre : |txt m.position.x| ≤ w.size

/-- What the bundle format keeps of a map: the centre lies on the diagonal (D2), the buffer starts at zero (D4), and centre and
resolution survive being written as text and the resolution being read as a `float`. -/
structure CostMap.BundleSafe (rf txt : K → K) (m : CostMap K) : Prop where
  diagonal : m.position.y = m.position.x
  start : m.startIndex = 0
  centre : txt m.position.x = m.position.x
  resolution : rf (txt m.resolution) = m.resolution

/-- The node refuses the message: it has more or fewer arrays than layers. -/
def RefusedI (rd : K → K) (msg : CostMapMsg K) : Prop := (CostMap.fromMessageI rd msg (CostMap.new [])).1 = .ok false

end CostMapModel
