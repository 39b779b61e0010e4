import Verif.Model.Inflation
import Verif.Spec.Geometry

/-! # Specification vocabulary for inflation -/

namespace CostMapModel
variable {K : Type} [Field K] [LinearOrder K]

/-- The contract of `std::priority_queue`: what is popped was in the queue, the rest stays, and no remaining element
has higher priority. Ties may be broken in any way. -/
def PopOk (pop : Inflation.Pop K) : Prop :=
  ∀ t q, q ≠ [] → ∃ c rest, pop t q = some (c, rest) ∧ List.Perm (c :: rest) q ∧ ∀ x ∈ rest, c.dist ≤ x.dist

/-- What is assumed of the rounded `std::hypot`, up to distances of `n + 1` cells along each axis: it compares with
whole numbers as the exact value does. -/
def HypOk (hyp : Nat → Nat → K) (n : Nat) : Prop :=
  ∀ i j k : Nat, i ≤ n + 1 → j ≤ n + 1 → k ≤ n → (hyp i j ≤ (k : K) ↔ i * i + j * j ≤ k * k)

/-- The squared distance of two cells, in cells. -/
def sqDist (a b : Idx) : Nat := (a.x - b.x).natAbs * (a.x - b.x).natAbs + (a.y - b.y).natAbs * (a.y - b.y).natAbs

/-- The Manhattan distance of two cells, in cells. -/
def manhattan (a b : Idx) : Nat := (a.x - b.x).natAbs + (a.y - b.y).natAbs

/-- A cell of the map that holds a lethal obstacle. -/
def CostMap.Lethal (m : CostMap K) (l : String) (i : Idx) : Prop := i.In m.size ∧ m.at l i = .ok LETHAL_OBSTACLE

/-- The cost the inflation computer gives to cell `c` for an obstacle at `o`. -/
def inflationCost (hyp : Nat → Nat → K) (computer : K → Cost) (resolution : K) (c o : Idx) : Cost :=
  computer (resolution * hyp (c.x - o.x).natAbs (c.y - o.y).natAbs)

end CostMapModel

namespace CostMapModel
variable {K : Type} [Field K] [LinearOrder K] [FloorRing K]

/-- What is assumed of a rounding: it is monotone and keeps 0. -/
structure RoundOk (r : K → K) : Prop where
  mono : Monotone r
  zero : r 0 = 0

/-- What is assumed of `std::exp`: it is monotone, not negative and exact at 0. -/
structure ExpOk (e : K → K) : Prop where
  mono : Monotone e
  nonneg : ∀ x, 0 ≤ e x
  zero : e 0 = 1

/-- The inflation radius in whole cells, rounded up. -/
def radiusInCells (radius resolution : K) : Nat := ⌈radius / resolution⌉.toNat

/-- How inflation treats the old cost of a cell: unknown space is overwritten only by a cost of at least
`INSCRIBED_OBSTACLE`, known costs are never lowered. -/
def combined (old cost : Cost) : Cost :=
  if old = NO_INFORMATION then (if INSCRIBED_OBSTACLE ≤ cost then cost else old)
  else if cost ≤ old then old else cost

/-- The costs deflation keeps: lethal and unknown, and inscribed if `keep`. -/
def Kept (keep : Bool) (v : Cost) : Prop := if keep then 253 ≤ v.toNat else 254 ≤ v.toNat

instance (keep : Bool) (v : Cost) : Decidable (Kept keep v) := by unfold Kept; infer_instance

/-- The states of an `Inflate` object that was so far called with one computer and one resolution only, on any maps,
layers and radii. -/
inductive Used (hyp : Nat → Nat → K) (computer : K → Cost) (resolution : K) : Inflater K → Prop where
  | new : Used hyp computer resolution Inflater.new
  | call {o : Inflater K} (h : Used hyp computer resolution o) (pop : Inflation.Pop K) (ls ld : String) (radius : K)
      (m : CostMap K) (log : List Idx) (hm : m.resolution = resolution) {st : Inflation K}
      (hr : Inflation.inflate pop hyp ls ld radius computer ⟨o, m, log⟩ = (.ok (), st)) :
      Used hyp computer resolution st.obj

/-- The states of an `Inflate` object after calls with any computers, maps, layers and radii. -/
inductive UsedAny (hyp : Nat → Nat → K) : Inflater K → Prop where
  | new : UsedAny hyp Inflater.new
  | call {o : Inflater K} (h : UsedAny hyp o) (pop : Inflation.Pop K) (ls ld : String) (radius : K)
      (computer : K → Cost) (m : CostMap K) (log : List Idx) {st : Inflation K}
      (hr : Inflation.inflate pop hyp ls ld radius computer ⟨o, m, log⟩ = (.ok (), st)) :
      UsedAny hyp st.obj

end CostMapModel

namespace CostMapModel
variable {K : Type} [Field K] [LinearOrder K]

/-- The obstacle `L` is clearly the nearest one to the cell `e`: every other obstacle is out of the range of `n` cells, or more than one cell farther away than
`L`, with the distance to `L` rounded up to whole cells. -/
def CostMap.ClearlyNearest (m : CostMap K) (l : String) (n : Nat) (L e : Idx) : Prop :=
  ∀ q, m.Lethal l q → q ≠ L → n * n < sqDist e q ∨ ∃ k, sqDist e L ≤ k * k ∧ (k + 1) * (k + 1) < sqDist e q

/-- The cells that can be reached from the obstacle `L` by steps to neighbouring cells of the map, each farther away from `L` but not out of the
range of `n` cells, over cells to which `L` is clearly the nearest obstacle. -/
inductive CostMap.ClearPath (m : CostMap K) (l : String) (n : Nat) (L : Idx) : Idx → Prop where
  | start : ClearPath m l n L L
  | step {b e : Idx} (h : ClearPath m l n L b) (hstep : manhattan b e = 1) (hfar : sqDist b L < sqDist e L)
      (hrange : sqDist e L ≤ n * n) (hin : e.In m.size) (hclear : m.ClearlyNearest l n L e) : ClearPath m l n L e

end CostMapModel
