import Verif.Model.Inflation
import Verif.Model.Float

/-!
# Inflation in floating point

`Model/Inflation.lean` divides the radius by the resolution and multiplies distances with the resolution exactly. Here both are
rounded as in cost_map_core/src/lib/operators/inflation.cpp (line numbers below): `rd` is the rounding to `double`, `rf` the one to
`float`. As there, `hyp` is what is stored in the distance cache (`std::hypot` rounded to `float`), and the radius and what the
computer gets are `float`s. NaN, infinities, overflow and underflow are not modelled.
-/

namespace CostMapModel
namespace Inflation
variable {K : Type} [Field K] [LinearOrder K] [FloorRing K] (rd rf : K → K)

/-- The number of cells of the inflation radius (38): the quotient of a `float` and a `double` is a `double`. -/
def cellsOfRd (radius resolution : K) : Option Nat :=
  if resolution = 0 then if 0 < radius then none else some 0
  else if ⌈rd (radius / resolution)⌉.toNat < 2 ^ 32 then some ⌈rd (radius / resolution)⌉.toNat else none

/-- `Inflate::computeCaches` (131-147). The resolution is passed as a `float` (131), and so is the product (144). -/
def computeCachesRd (hyp : Nat → Nat → K) (computer : K → Cost) (resolution : K) (o : Inflater K) : Inflater K :=
  { o with
    distances := Mat.ofFn (o.cellRadius + 2) (o.cellRadius + 2) fun i j => hyp i.toNat j.toNat
    costs := Mat.ofFn (o.cellRadius + 2) (o.cellRadius + 2) fun i j => computer (rf (rf resolution * hyp i.toNat j.toNat)) }

/-- The rebuilding of the internals (36-42). -/
def prepareRd (hyp : Nat → Nat → K) (radius : K) (computer : K → Cost) : Act (Inflation K) Unit := fun s =>
  let o := { s.obj with seen := Mat.const s.map.size.x.toNat s.map.size.y.toNat false }
  match cellsOfRd rd radius s.map.resolution with
  | none => (.ub, { s with obj := o })
  | some n =>
    if n ≠ o.cellRadius then
      (.ok (), { s with obj := computeCachesRd rf hyp computer s.map.resolution { o with cellRadius := n } })
    else (.ok (), { s with obj := o })

/-- `Inflate::operator()` (21-82). -/
def inflateRd (pop : Pop K) (hyp : Nat → Nat → K) (ls ld : String) (radius : K) (computer : K → Cost) :
    Act (Inflation K) Unit :=
  Act.bind (Act.modify fun s => { s with pushed := [] }) fun _ =>
  Act.bind (Act.read fun s => s.map.get ls) fun src =>
  Act.bind (onMap (CostMap.add ld src)) fun _ =>
  Act.bind (prepareRd rd rf hyp radius computer) fun _ =>
  Act.bind (Act.forEach (seed ls ld) (colMajor src.rows src.cols)) fun _ =>
  Act.bind Act.get fun s => spread pop ls ld (s.map.size.x.toNat * s.map.size.y.toNat)

end Inflation
end CostMapModel
