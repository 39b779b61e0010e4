import Verif.Model.MachineInflation
import Verif.Spec.Inflation
import Verif.Spec.InflationFloat

/-! # The calls an inflater can have had before -/

namespace CostMapModel
open CostMap Inflation
variable {K : Type} [Field K] [LinearOrder K] [FloorRing K]

/-- An inflater as it was constructed, or after calls that returned, on maps with this resolution and with this computer, with any radius, also
NaN, of no more than `2^32 - 3` cells. -/
inductive UsedU (F : Fmt K) (rf : K → K) (hyp : Nat → Nat → K) (computer : K → Cost) (res : K) : Inflater K → Prop
  | new : UsedU F rf hyp computer res Inflater.new
  | call {o : Inflater K} (h : UsedU F rf hyp computer res o) (pop : Pop K) (hpop : PopOk pop) (ls ld : String) (r : Dbl K)
      (hr : ∀ n, cellsOfD F r (.fin res) = some n → n < 2 ^ 32 - 2) (m : CostMap K) (log : List Idx) (hc : m.Coherent)
      (hX : m.size.x < 2 ^ 31) (hY : m.size.y < 2 ^ 31) (hm : m.resolution = res) {st' : Inflation K}
      (hrun : inflateU F rf pop hyp ls ld r computer ⟨o, m, log⟩ = (.ok (), st')) : UsedU F rf hyp computer res st'.obj

end CostMapModel
