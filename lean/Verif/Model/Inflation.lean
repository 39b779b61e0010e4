import Verif.Model.Merge

/-!
# Inflation and deflation

Model of cost_map_core/src/lib/operators/inflation.cpp and
cost_map_core/include/cost_map_core/operators/inflation.hpp (line numbers refer to the former unless `hpp` is said).
-/

namespace CostMapModel
variable {K : Type} [Field K] [LinearOrder K] [FloorRing K]

/-- `Inflate::CellData` (hpp 99-123); queue order is by `dist`, smallest first (hpp 117-119). -/
structure InflateCell (K : Type) where
  dist : K
  cell : Idx
  src : Idx
  deriving DecidableEq, Repr

/-- State of an `Inflate` object (hpp 160-164). The queue is kept as the list of its elements. -/
structure Inflater (K : Type) where
  seen : Mat Bool
  distances : Mat K
  costs : Mat Cost
  queue : List (InflateCell K)
  cellRadius : Nat

/-- `Inflate::Inflate()` (hpp 77-79). -/
def Inflater.new : Inflater K := ⟨Mat.empty, Mat.empty, Mat.empty, [], 2 ^ 32 - 1⟩

/-- What a call of `Inflate::operator()` works on: the object and the map. `pushed` is not in the code: it records the
cells pushed onto the queue during the call, newest first. -/
structure Inflation (K : Type) where
  obj : Inflater K
  map : CostMap K
  pushed : List Idx

namespace Inflation

/-- A call on the map. -/
def onMap {α : Type} (f : Act (CostMap K) α) : Act (Inflation K) α := fun s =>
  ((f s.map).1, { s with map := (f s.map).2 })

/-- The order of the nested loops 46-47 and 200-201: rows fastest. -/
def colMajor (rows cols : Nat) : List Idx :=
  (List.range cols).flatMap fun (j : Nat) => (List.range rows).map fun (i : Nat) => (⟨(i : Int), (j : Int)⟩ : Idx)

/-- The number of cells of the inflation radius (38): `static_cast<unsigned int>(max(0.0, ceil(radius / resolution)))`;
`none` where the conversion is undefined behaviour. A map without geometry has resolution 0, where C++ computes an
infinity or, for radius 0, a NaN that `max` drops. -/
def cellsOf (radius resolution : K) : Option Nat :=
  if resolution = 0 then if 0 < radius then none else some 0
  else if ⌈radius / resolution⌉.toNat < 2 ^ 32 then some ⌈radius / resolution⌉.toNat else none

/-- `Inflate::computeCaches` (131-147). `hyp` stands for `std::hypot` rounded to float, `computer` for the inflation
computer. The product with the resolution is exact, and `cell_inflation_radius_ + 2` does not wrap. -/
def computeCaches (hyp : Nat → Nat → K) (computer : K → Cost) (resolution : K) (o : Inflater K) : Inflater K :=
  { o with
    distances := Mat.ofFn (o.cellRadius + 2) (o.cellRadius + 2) fun i j => hyp i.toNat j.toNat
    costs := Mat.ofFn (o.cellRadius + 2) (o.cellRadius + 2) fun i j => computer (resolution * hyp i.toNat j.toNat) }

/-- The rebuilding of the internals (36-42): the caches are recomputed only when the radius in cells changes. -/
def prepare (hyp : Nat → Nat → K) (radius : K) (computer : K → Cost) : Act (Inflation K) Unit := fun s =>
  let o := { s.obj with seen := Mat.const s.map.size.x.toNat s.map.size.y.toNat false }
  match cellsOf radius s.map.resolution with
  | none => (.ub, { s with obj := o })
  | some n =>
    if n ≠ o.cellRadius then
      (.ok (), { s with obj := computeCaches hyp computer s.map.resolution { o with cellRadius := n } })
    else (.ok (), { s with obj := o })

/-- `Inflate::distanceLookup` (117-122). -/
def distanceLookup (c src : Idx) (o : Inflater K) : Res K :=
  .ofOption (o.distances.get? ((c.x - src.x).natAbs : Int) ((c.y - src.y).natAbs : Int))

/-- `Inflate::costLookup` (124-129). -/
def costLookup (c src : Idx) (o : Inflater K) : Res Cost :=
  .ofOption (o.costs.get? ((c.x - src.x).natAbs : Int) ((c.y - src.y).natAbs : Int))

/-- How an inflation cost is combined with the old cost of a cell (105-108). -/
def superimpose (old cost : Cost) : Cost :=
  if old = NO_INFORMATION ∧ INSCRIBED_OBSTACLE ≤ cost then cost else if old < cost then cost else old

/-- `Inflate::enqueue` (84-115). -/
def enqueue (ls ld : String) (c src : Idx) : Act (Inflation K) Unit :=
  Act.bind (Act.read fun s => .ofOption (s.obj.seen.get? c.x c.y)) fun seen =>
    if seen then Act.pure () else
    Act.bind (Act.read fun s => distanceLookup c src s.obj) fun d =>
    Act.bind Act.get fun s =>
    if (s.obj.cellRadius : K) < d then Act.pure () else
    Act.bind (Act.read fun s => costLookup c src s.obj) fun cost =>
    Act.bind (Act.read fun s => s.map.at ls c) fun old =>
    Act.bind (onMap (CostMap.setAt ld c (superimpose old cost))) fun _ =>
    Act.modify fun s =>
      { s with obj := { s.obj with seen := s.obj.seen.set c.x c.y true, queue := ⟨d, c, src⟩ :: s.obj.queue },
               pushed := c :: s.pushed }

/-- The body of the loop over the source layer (48-52). -/
def seed (ls ld : String) (c : Idx) : Act (Inflation K) Unit :=
  Act.bind (Act.read fun s => s.map.at ls c) fun cost =>
    if cost = LETHAL_OBSTACLE then enqueue ls ld c c else Act.pure ()

/-- The four neighbours of a popped cell (69-80). -/
def visit (ls ld : String) (c src : Idx) : Act (Inflation K) Unit :=
  Act.bind Act.get fun s =>
  Act.bind (if 0 < c.x then enqueue ls ld ⟨c.x - 1, c.y⟩ src else Act.pure ()) fun _ =>
  Act.bind (if 0 < c.y then enqueue ls ld ⟨c.x, c.y - 1⟩ src else Act.pure ()) fun _ =>
  Act.bind (if c.x < s.map.size.x - 1 then enqueue ls ld ⟨c.x + 1, c.y⟩ src else Act.pure ()) fun _ =>
  if c.y < s.map.size.y - 1 then enqueue ls ld ⟨c.x, c.y + 1⟩ src else Act.pure ()

/-- `top` and `pop` of a priority queue holding the given elements: the element returned and what remains. It may
choose differently at each of its uses, which are numbered. -/
abbrev Pop (K : Type) := Nat → List (InflateCell K) → Option (InflateCell K × List (InflateCell K))

/-- The loop over the queue (55-81), with fuel. -/
def spread (pop : Pop K) (ls ld : String) : Nat → Act (Inflation K) Unit
  | 0 => fun s => if s.obj.queue.isEmpty then (.ok (), s) else (.outOfFuel, s)
  | n + 1 => fun s =>
    if s.obj.queue.isEmpty then (.ok (), s) else
    match pop n s.obj.queue with
    | none => (.ub, s)
    | some (c, rest) =>
      Act.bind (visit ls ld c.cell c.src) (fun _ => spread pop ls ld n) { s with obj := { s.obj with queue := rest } }

/-- `Inflate::operator()` (21-82). The fuel of the last loop is the number of cells; `C40` shows that it suffices. -/
def inflate (pop : Pop K) (hyp : Nat → Nat → K) (ls ld : String) (radius : K) (computer : K → Cost) :
    Act (Inflation K) Unit :=
  Act.bind (Act.modify fun s => { s with pushed := [] }) fun _ =>
  Act.bind (Act.read fun s => s.map.get ls) fun src =>
  Act.bind (onMap (CostMap.add ld src)) fun _ =>
  Act.bind (prepare hyp radius computer) fun _ =>
  Act.bind (Act.forEach (seed ls ld) (colMajor src.rows src.cols)) fun _ =>
  Act.bind Act.get fun s => spread pop ls ld (s.map.size.x.toNat * s.map.size.y.toNat)

/-- `ROSInflationComputer::operator()` (161-174). `rf` and `rd` stand for the rounding to float and to double, `exp` for
`std::exp`. The conversion of a value outside of `(-1, 256)` to `unsigned char` is undefined behaviour. -/
def rosCost (rf rd exp : K → K) (inscribed weight distance : K) : Res Cost :=
  if distance = 0 then .ok LETHAL_OBSTACLE
  else if distance ≤ inscribed then .ok INSCRIBED_OBSTACLE
  else
    let x := rd (252 * exp (rd (-1 * weight * rf (distance - inscribed))))
    if -1 < x ∧ x < 256 then .ok (UInt8.ofNat ⌊x⌋.toNat) else .ub

end Inflation

namespace CostMap

/-- The body of the loop of `Deflate::operator()` (202-203); `src` is the copy of the source layer. -/
def deflateCell (keep : Bool) (src : Mat Cost) (ld : String) (i : Idx) : Act (CostMap K) Unit :=
  Act.bind (Act.lift (.ofOption (src.get? i.x i.y))) fun cost =>
    setAt ld i (if (if keep then INSCRIBED_OBSTACLE else LETHAL_OBSTACLE) ≤ cost then cost else FREE_SPACE)

/-- `Deflate::operator()` (185-206); `keep` is `do_not_strip_inscribed_region`. -/
def deflate (keep : Bool) (ls ld : String) : Act (CostMap K) Unit :=
  Act.bind (Act.read fun m => m.get ls) fun src =>
  Act.bind (addConst ld NO_INFORMATION) fun _ =>
  Act.forEach (deflateCell keep src ld) (Inflation.colMajor src.rows src.cols)

end CostMap
end CostMapModel
