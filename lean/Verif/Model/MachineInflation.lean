import Verif.Model.InflationFloat
import Verif.Model.Ieee

/-!
# Inflation with the machine's integers, for every radius

The functions of `Model/InflationFloat.lean` with cell coordinates and table sizes in `unsigned int`, which wrap, conversions of
them to `int`, and an inflation radius that may be infinite or NaN. All line numbers refer to
cost_map_core/src/lib/operators/inflation.cpp. The map itself has a finite resolution.
-/

namespace CostMapModel

/-- The value of an `unsigned int` operation: it wraps. -/
def u32 (z : Int) : Int := z % 4294967296

/-- Conversion of an `unsigned int` to `int` (modulo 2^32, as all implementations do and C++20 requires). -/
def u32ToI32 (z : Int) : Int := if u32 z < 2147483648 then u32 z else u32 z - 4294967296

namespace Inflation
variable {K : Type} [Field K] [LinearOrder K] [FloorRing K] (F : Fmt K) (rf : K → K)

/-- The number of cells of the inflation radius (38): the quotient, `std::ceil` (which keeps infinities and NaN), `std::max(0.0, x)`
(which is `0.0 < x ? x : 0.0`), and the conversion to `unsigned int`, undefined outside of its range. -/
def cellsOfD (radius resolution : Dbl K) : Option Nat :=
  let x := match Dbl.div F radius resolution with
    | .fin q => .fin (⌈q⌉ : K)
    | q => q
  match (if Dbl.lt (.fin 0) x then x else .fin 0) with
  | .fin y => if ⌊y⌋.toNat < 2 ^ 32 then some ⌊y⌋.toNat else none
  | _ => none

/-- `Inflate::computeCaches` (131-147): the tables get `cell_inflation_radius_ + 2` rows and columns, the loops run up to
`cell_inflation_radius_ + 1`, both wrapping; an entry outside of the tables is undefined behaviour. -/
def computeCachesU (hyp : Nat → Nat → K) (computer : K → Cost) (resolution : K) (o : Inflater K) : Option (Inflater K) :=
  let n := (u32 (o.cellRadius + 2)).toNat
  let last := (u32 (o.cellRadius + 1)).toNat
  if last < n then some
    { o with
      distances := Mat.ofFn n n fun i j => hyp i.toNat j.toNat
      costs := Mat.ofFn n n fun i j => computer (rf (rf resolution * hyp i.toNat j.toNat)) }
  else none

/-- The rebuilding of the internals (36-42); `size_x` and `size_y` are the `int`s of the size as `unsigned int`s (29-30). The
product `size` (31) wraps, but is not used. -/
def prepareU (hyp : Nat → Nat → K) (radius : Dbl K) (computer : K → Cost) : Act (Inflation K) Unit := fun s =>
  let o := { s.obj with seen := Mat.const (u32 s.map.size.x).toNat (u32 s.map.size.y).toNat false }
  match cellsOfD F radius (.fin s.map.resolution) with
  | none => (.ub, { s with obj := o })
  | some n =>
    if n ≠ o.cellRadius then
      match computeCachesU rf hyp computer s.map.resolution { o with cellRadius := n } with
      | none => (.ub, { s with obj := o })
      | some o' => (.ok (), { s with obj := o' })
    else (.ok (), { s with obj := o })

/-- One axis of the lookups (119, 126): the arguments are converted to `int`, the result to `unsigned int`. -/
def offsetU (a b : Int) : Option Int :=
  (I32.sub (u32ToI32 a) (u32ToI32 b)).bind fun d => (I32.abs d).bind fun d => some (u32 d)

/-- `Inflate::distanceLookup` (117-122). -/
def distanceLookupU (c src : Idx) (o : Inflater K) : Res K :=
  .ofOption ((offsetU c.x src.x).bind fun dx => (offsetU c.y src.y).bind fun dy => o.distances.get? dx dy)

/-- `Inflate::costLookup` (124-129). -/
def costLookupU (c src : Idx) (o : Inflater K) : Res Cost :=
  .ofOption ((offsetU c.x src.x).bind fun dx => (offsetU c.y src.y).bind fun dy => o.costs.get? dx dy)

/-- `Inflate::enqueue` (84-115). -/
def enqueueU (ls ld : String) (c src : Idx) : Act (Inflation K) Unit :=
  Act.bind (Act.read fun s => .ofOption (s.obj.seen.get? c.x c.y)) fun seen =>
    if seen then Act.pure () else
    Act.bind (Act.read fun s => distanceLookupU c src s.obj) fun d =>
    Act.bind Act.get fun s =>
    if (s.obj.cellRadius : K) < d then Act.pure () else
    Act.bind (Act.read fun s => costLookupU c src s.obj) fun cost =>
    Act.bind (Act.read fun s => s.map.at ls c) fun old =>
    Act.bind (onMap (CostMap.setAt ld c (superimpose old cost))) fun _ =>
    Act.modify fun s =>
      { s with obj := { s.obj with seen := s.obj.seen.set c.x c.y true, queue := ⟨d, c, src⟩ :: s.obj.queue },
               pushed := c :: s.pushed }

/-- The body of the loop over the source layer (48-52). -/
def seedU (ls ld : String) (c : Idx) : Act (Inflation K) Unit :=
  Act.bind (Act.read fun s => s.map.at ls c) fun cost =>
    if cost = LETHAL_OBSTACLE then enqueueU ls ld c c else Act.pure ()

/-- The four neighbours of a popped cell (69-80). -/
def visitU (ls ld : String) (c src : Idx) : Act (Inflation K) Unit :=
  Act.bind Act.get fun s =>
  Act.bind (if 0 < c.x then enqueueU ls ld ⟨u32 (c.x - 1), c.y⟩ src else Act.pure ()) fun _ =>
  Act.bind (if 0 < c.y then enqueueU ls ld ⟨c.x, u32 (c.y - 1)⟩ src else Act.pure ()) fun _ =>
  Act.bind (if c.x < u32 (u32 s.map.size.x - 1) then enqueueU ls ld ⟨u32 (c.x + 1), c.y⟩ src else Act.pure ()) fun _ =>
  if c.y < u32 (u32 s.map.size.y - 1) then enqueueU ls ld ⟨c.x, u32 (c.y + 1)⟩ src else Act.pure ()

/-- The loop over the queue (55-81), with fuel. -/
def spreadU (pop : Pop K) (ls ld : String) : Nat → Act (Inflation K) Unit
  | 0 => fun s => if s.obj.queue.isEmpty then (.ok (), s) else (.outOfFuel, s)
  | n + 1 => fun s =>
    if s.obj.queue.isEmpty then (.ok (), s) else
    match pop n s.obj.queue with
    | none => (.ub, s)
    | some (c, rest) =>
      Act.bind (visitU ls ld c.cell c.src) (fun _ => spreadU pop ls ld n) { s with obj := { s.obj with queue := rest } }

/-- `Inflate::operator()` (21-82). The bounds of the loops 46-47 are the dimensions of the layer as `unsigned int`s. -/
def inflateU (pop : Pop K) (hyp : Nat → Nat → K) (ls ld : String) (radius : Dbl K) (computer : K → Cost) :
    Act (Inflation K) Unit :=
  Act.bind (Act.modify fun s => { s with pushed := [] }) fun _ =>
  Act.bind (Act.read fun s => s.map.get ls) fun src =>
  Act.bind (onMap (CostMap.add ld src)) fun _ =>
  Act.bind (prepareU F rf hyp radius computer) fun _ =>
  Act.bind (Act.forEach (seedU ls ld) (colMajor (u32 src.rows).toNat (u32 src.cols).toNat)) fun _ =>
  Act.bind Act.get fun s => spreadU pop ls ld (s.map.size.x.toNat * s.map.size.y.toNat)

end Inflation
end CostMapModel
