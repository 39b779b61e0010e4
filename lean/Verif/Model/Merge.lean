import Verif.Model.Iterators
import Mathlib.Data.Fin.VecNotation

/-!
# Merging maps and interpolating

Model of `CostMap::addDataFrom`, `CostMap::extendToInclude` and of `CostMap::atPosition` with an interpolation
method. All line numbers refer to cost_map_core/src/lib/cost_map.cpp.
-/

namespace CostMapModel

/-- A call on some other object, which does not change this one. -/
def Act.lift {σ α : Type} (r : Res α) : Act σ α := fun s => (r, s)

/-- `for (it; !it.isPastEnd(); ++it) body(*it);` with at most `n` tests of the loop condition; the theorems show that
the bound the callers give is never reached. -/
def Act.forIter {σ τ β : Type} (I : IterOps τ β) (body : β → Act σ Unit) : Nat → τ → Act σ Unit
  | 0, _ => fun s => (.outOfFuel, s)
  | n + 1, it =>
    if I.isPastEnd it then Act.pure ()
    else Act.bind (Act.lift (I.deref it)) fun x => Act.bind (body x) fun _ =>
      Act.bind (Act.lift (I.next it)) fun it' => Act.forIter I body n it'

namespace CostMap
variable {K : Type} [Field K] [LinearOrder K] [FloorRing K]

/-- `for (CostMapIterator it(*this); !it.isPastEnd(); ++it) body(*it);` (417, 490). The bodies do not change the
geometry, so the iterator, which copies it, sees the map as it was when the loop began. -/
def forCells (body : Idx → Act (CostMap K) Unit) : Act (CostMap K) Unit := fun m =>
  Act.forIter CostMapIter.ops body (m.size.x.toNat * m.size.y.toNat + 2) (CostMapIter.new m) m

/-! ## addDataFrom -/

/-- Loop body 412-414: add a layer, filled with `NO_INFORMATION`, unless the map has it. -/
def addMissing (l : String) : Act (CostMap K) Unit := fun m =>
  if l ∈ m.layers then (.ok (), m) else addConst l NO_INFORMATION m

/-- Loop body 425-426: copy one layer of cell `j` of `other` to cell `i`, if it is valid there. -/
def mergeLayer (other : CostMap K) (i j : Idx) (l : String) : Act (CostMap K) Unit :=
  Act.bind (Act.lift (other.isValidLayer j l)) fun v =>
    if !v then Act.pure ()
    else Act.bind (Act.lift (other.at l j)) fun c => setAt l i c

/-- Loop body 418-427: one cell. `getPosition` is not checked by the code; were it to fail, the position would be
uninitialised. -/
def mergeCell (other : CostMap K) (overwrite : Bool) (ls : List String) (i : Idx) : Act (CostMap K) Unit :=
  Act.bind (Act.read fun m => m.isValid i) fun v =>
    if v && !overwrite then Act.pure ()
    else fun m => match m.getPosition i with
      | none => (.ub, m)
      | some p =>
        if !other.isInside p then (.ok (), m)
        else Act.forEach (mergeLayer other i (other.getIndex p).1) ls m

/-! ## extendToInclude -/

/-- One axis of the extension (436-463): centre and length grow to cover both intervals. The flag is
`resizeMap`. -/
def extendAxis (pos len pos' len' : K) : K × K × Bool :=
  let hi := pos + len / 2
  let lo := pos - len / 2
  let hi' := pos' + len' / 2
  let lo' := pos' - len' / 2
  let (p, l, b) := if hi < hi' then (pos + (hi' - hi) / 2, len + (hi' - hi), true) else (pos, len, false)
  if lo' < lo then (p - (lo - lo') / 2, l + (lo - lo'), true) else (p, l, b)

/-- One axis of "Align new map with old one" (470-488): the new centre, from the centre and size after `setGeometry`
and those of the old map. `fmod` keeps the sign of its first argument, also for a zero result, so
`copysign(_, shift)` after lines 471-472 sees the sign of the unreduced shift. `size % 2` is C++'s remainder. -/
def alignAxis (r pos old : K) (size oldSize : Int) : K :=
  let d := pos - old
  let shift := fmod d r
  let pos := if |shift| < r / 2 then pos - shift else pos + (r - shift)
  if Int.tmod size 2 ≠ Int.tmod oldSize 2 then pos + -(if d < 0 then -(r / 2) else r / 2) else pos

/-- Loop body 498: copy one layer of cell `j` of the old map to cell `i`. -/
def restoreLayer (copy : CostMap K) (i j : Idx) (l : String) : Act (CostMap K) Unit :=
  Act.bind (Act.lift (copy.at l j)) fun c => setAt l i c

/-- Loop body 491-499. -/
def restoreCell (copy : CostMap K) (i : Idx) : Act (CostMap K) Unit :=
  Act.bind (Act.read fun m => m.isValid i) fun v =>
    if v then Act.pure ()
    else fun m => match m.getPosition i with
      | none => (.ub, m)
      | some p =>
        if !copy.isInside p then (.ok (), m)
        else Act.forEach (restoreLayer copy i (copy.getIndex p).1) m.layers m

/-- The assignments to `position_` (470-488). -/
def alignTo (copy : CostMap K) : Act (CostMap K) Unit := fun m =>
  (.ok (), { m with position :=
    ⟨alignAxis m.resolution m.position.x copy.position.x m.size.x copy.size.x,
     alignAxis m.resolution m.position.y copy.position.y m.size.y copy.size.y⟩ })

/-- `CostMap::extendToInclude` (433-503); it always returns true. -/
def extendToInclude (other : CostMap K) : Act (CostMap K) Bool := fun m =>
  let (px, lx, bx) := extendAxis m.position.x m.length.x other.position.x other.length.x
  let (py, ly, by') := extendAxis m.position.y m.length.y other.position.y other.length.y
  if bx || by' then
    Act.bind (setGeometry ⟨lx, ly⟩ m.resolution ⟨px, py⟩) (fun _ =>
      Act.bind (alignTo m) fun _ =>
        Act.bind (forCells (restoreCell m)) fun _ => Act.pure true) m
  else (.ok true, m)

/-- `CostMap::addDataFrom` (401-431); it always returns true. -/
def addDataFrom (other : CostMap K) (extend overwrite copyAll : Bool) (ls : List String) : Act (CostMap K) Bool :=
  let ls := if copyAll then other.layers else ls
  Act.bind (if extend then extendToInclude other else Act.pure true) fun _ =>
    Act.bind (Act.forEach addMissing ls) fun _ =>
      Act.bind (forCells (mergeCell other overwrite ls)) fun _ => Act.pure true

/-! ## Interpolated access -/

/-- A solver of 4 × 4 linear systems, `A.colPivHouseholderQr().solve(b)` (640). -/
abbrev Solver (K : Type) := (Fin 4 → Fin 4 → K) → (Fin 4 → K) → Fin 4 → K

/-- `CostMap::atPositionLinearInterpolated` (602-645): `ok none` when it returns false. The results of lines 607-608
are not checked: for a position outside the map `points[0]` may stay uninitialised, and comparing with it is
undefined behaviour. The blend is exact; rounding to `double` and to `float` (the type of `value`) is not modelled. -/
def linearInterpolated (solve : Solver K) (m : CostMap K) (l : String) (p : Vec K) : Res (Option K) :=
  let i0 := (m.getIndex p).1
  match m.getPosition i0 with
  | none => .ub
  | some p0 =>
    let i1 := if p0.x ≤ p.x then i0 + ⟨-1, 0⟩ else i0 + ⟨1, 0⟩
    match m.getPosition i1 with
    | none => .ok none
    | some p1 =>
      let i2 := if p0.y ≤ p.y then i0 + ⟨0, -1⟩ else i0 + ⟨0, 1⟩
      match m.getPosition i2 with
      | none => .ok none
      | some p2 =>
        let i3 : Idx := ⟨i1.x, i2.y⟩
        match m.getPosition i3 with
        | none => .ok none
        | some p3 =>
          (m.at l i0).bind fun b0 => (m.at l i1).bind fun b1 => (m.at l i2).bind fun b2 => (m.at l i3).bind fun b3 =>
            let row := fun (q : Vec K) => (![1, q.x, q.y, q.x * q.y] : Fin 4 → K)
            let x := solve ![row p0, row p1, row p2, row p3]
              ![(b0.toNat : K), (b1.toNat : K), (b2.toNat : K), (b3.toNat : K)]
            .ok (some (x 0 + x 1 * p.x + x 2 * p.y + x 3 * p.x * p.y))

/-- `return value;` (178): conversion from floating point to `unsigned char` truncates; out of range it is undefined
behaviour. -/
def costOfFloat (v : K) : Res Cost :=
  let t := truncToInt v
  if 0 ≤ t ∧ t ≤ 255 then .ok (UInt8.ofNat t.toNat) else .ub

/-- `grid_map::InterpolationMethods`; `other` stands for any further value. -/
inductive Interp where
  | nearest
  | linear
  | other
  deriving DecidableEq, Repr

/-- `CostMap::atPosition(layer, position, interpolation_method)` (170-194). -/
def atPositionInterp (solve : Solver K) (m : CostMap K) (l : String) (p : Vec K) : Interp → Res Cost
  | .linear => (m.linearInterpolated solve l p).bind fun r => match r with
    | some v => costOfFloat v
    | none => m.atPosition l p
  | .nearest => m.atPosition l p
  | .other => .thrown .runtimeError

end CostMap
end CostMapModel
