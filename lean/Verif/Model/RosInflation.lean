import Verif.Model.MachineInflation

/-!
# Inflation with any cost function, and the ROS cost for any parameter

`Model/MachineInflation.lean` has cost functions that always return. Here an inflation computer may throw or have undefined behaviour, and
the distances it gets may be infinite or NaN. The ROS cost function is modelled for all `float` parameters. All line numbers refer to
cost_map_core/src/lib/operators/inflation.cpp.
-/

namespace CostMapModel

/-- `std::exp`. `ex` stands for its value at numbers, before overflow. -/
def Dbl.exp {K : Type} [Field K] [LinearOrder K] (F : Fmt K) (ex : K → K) : Dbl K → Dbl K
  | .fin x => if F.top ≤ ex x then .pinf else .fin (ex x)
  | .pinf => .pinf
  | .ninf => .fin 0
  | .nan => .nan

namespace Inflation
variable {K : Type} [Field K] [LinearOrder K] [FloorRing K] (F Ff : Fmt K)

/-- `ROSInflationComputer::operator()` (161-174). `F` is `double`, `Ff` is `float`: the difference (171) is one of `float`s, the products
(171-172) are of `double`s; `-1.0 * weight_` is exact. The conversion of a value outside of `(-1, 256)` to `unsigned char` is undefined
behaviour. -/
def rosCostD (ex : K → K) (inscribed weight distance : Dbl K) : Res Cost :=
  if (match distance with | .fin d => decide (d = 0) | _ => false) then .ok LETHAL_OBSTACLE
  else if Dbl.le distance inscribed then .ok INSCRIBED_OBSTACLE
  else
    match Dbl.mul F (.fin 252) (Dbl.exp F ex (.mul F (.neg weight) (.sub Ff distance inscribed))) with
    | .fin x => if -1 < x ∧ x < 256 then .ok (UInt8.ofNat ⌊x⌋.toNat) else .ub
    | _ => .ub

/-- The loop that fills the table of costs (142-146): the entries in the order they are computed; what ends the function leaves the
remaining entries as they are. -/
def fillCosts (entry : Nat → Nat → Res Cost) : List (Nat × Nat) → Mat Cost → Res Unit × Mat Cost
  | [], t => (.ok (), t)
  | (i, j) :: cells, t =>
    match entry i j with
    | .ok c => fillCosts entry cells (t.set i j c)
    | r => (r.bind fun _ => .ok (), t)

/-- The indices of a loop over rows and, inside of it, columns, both below `n`. -/
def tableCells (n : Nat) : List (Nat × Nat) := (List.range n).flatMap fun i => (List.range n).map fun j => (i, j)

/-- The distance given to the inflation computer (144): a product of `float`s; the resolution is converted to `float` by the call (41). -/
def tableDistance (resolution distance : K) : Dbl K := .mul Ff (.round Ff resolution) (.fin distance)

/-- `Inflate::computeCaches` (131-147). `junk` is what `resize` (133) leaves in the table of costs. -/
def computeCachesC (junk : Int → Int → Cost) (hyp : Nat → Nat → K) (computer : Dbl K → Res Cost) (resolution : K) (o : Inflater K) :
    Res Unit × Inflater K :=
  let n := (u32 (o.cellRadius + 2)).toNat
  let last := (u32 (o.cellRadius + 1)).toNat
  if last < n then
    let o := { o with distances := Mat.ofFn n n fun i j => hyp i.toNat j.toNat }
    let r := fillCosts (fun i j => computer (tableDistance Ff resolution (hyp i j))) (tableCells n) (Mat.ofFn n n junk)
    (r.1, { o with costs := r.2 })
  else (.ub, o)

/-- The rebuilding of the internals (36-42). The new number of cells is stored (40) before the caches are computed (41). -/
def prepareC (junk : Int → Int → Cost) (hyp : Nat → Nat → K) (radius : Dbl K) (computer : Dbl K → Res Cost) :
    Act (Inflation K) Unit := fun s =>
  let o := { s.obj with seen := Mat.const (u32 s.map.size.x).toNat (u32 s.map.size.y).toNat false }
  match cellsOfD F radius (.fin s.map.resolution) with
  | none => (.ub, { s with obj := o })
  | some n =>
    if n ≠ o.cellRadius then
      let r := computeCachesC Ff junk hyp computer s.map.resolution { o with cellRadius := n }
      (r.1, { s with obj := r.2 })
    else (.ok (), { s with obj := o })

/-- `Inflate::operator()` (21-82), as `inflateU`. -/
def inflateC (junk : Int → Int → Cost) (pop : Pop K) (hyp : Nat → Nat → K) (ls ld : String) (radius : Dbl K)
    (computer : Dbl K → Res Cost) : Act (Inflation K) Unit :=
  Act.bind (Act.modify fun s => { s with pushed := [] }) fun _ =>
  Act.bind (Act.read fun s => s.map.get ls) fun src =>
  Act.bind (onMap (CostMap.add ld src)) fun _ =>
  Act.bind (prepareC F Ff junk hyp radius computer) fun _ =>
  Act.bind (Act.forEach (seedU ls ld) (colMajor (u32 src.rows).toNat (u32 src.cols).toNat)) fun _ =>
  Act.bind Act.get fun s => spreadU pop ls ld (s.map.size.x.toNat * s.map.size.y.toNat)

end Inflation
end CostMapModel
