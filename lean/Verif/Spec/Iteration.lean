import Verif.Model.Iterators
import Verif.Spec.Geometry

/-!
# Specification vocabulary: what a `for` loop over an iterator sees
-/

namespace CostMapModel

/-- `for (; !it.isPastEnd(); ++it) use(*it);` started in state `s` ends normally after using exactly the
values `xs`, in this order. -/
inductive Visits {σ β : Type} (I : IterOps σ β) : σ → List β → Prop
  | done {s : σ} : I.isPastEnd s = true → Visits I s []
  | step {s s' : σ} {x : β} {xs : List β} : I.isPastEnd s = false → I.deref s = .ok x → I.next s = .ok s' →
      Visits I s' xs → Visits I s (x :: xs)

/-- All indices of a `size.x` by `size.y` grid in row-major order. -/
def rowMajor (size : Idx) : List Idx :=
  (List.range (size.x.toNat * size.y.toNat)).map fun k =>
    ⟨((k / size.y.toNat : Nat) : Int), ((k % size.y.toNat : Nat) : Int)⟩

/-- `xs` enumerates exactly the indices satisfying `P`, each once. -/
def Enumerates (xs : List Idx) (P : Idx → Prop) : Prop := xs.Nodup ∧ ∀ i, i ∈ xs ↔ P i

end CostMapModel

namespace CostMapModel
variable {K : Type} [Field K] [LinearOrder K]

/-- The guard margin grid_map uses when it pulls a position back into the map, `10 * 2^-52 * max(1, |p|)`, is
below one cell for the corner `p`. (True for every corner closer than about `4 * 10^13` metres at a
resolution of 0.1.) -/
def EpsOk (m : CostMap K) (p : Vec K) : Prop :=
  10 * dblEpsilon * max 1 |p.x| < m.resolution ∧ 10 * dblEpsilon * max 1 |p.y| < m.resolution

end CostMapModel

namespace CostMapModel
variable {K : Type} [Field K] [LinearOrder K]

/-- The ray from `p` in the direction of growing x meets the edge from `a` to `b`. The edge counts with its
lower end but not with its upper end. -/
def RayHits (p a b : Vec K) : Prop :=
  ((a.y ≤ p.y ∧ p.y < b.y) ∨ (b.y ≤ p.y ∧ p.y < a.y)) ∧
  ∃ t, 0 ≤ t ∧ t ≤ 1 ∧ p.y = a.y + t * (b.y - a.y) ∧ p.x < a.x + t * (b.x - a.x)

/-- The edges of the closed polygon with vertices `vs`. -/
def polygonEdges (vs : List (Vec K)) : List (Vec K × Vec K) := vs.zip (vs.rotate 1)

open Classical in
/-- `p` is inside the closed polygon by the even-odd rule. -/
def EvenOdd (vs : List (Vec K)) (p : Vec K) : Prop :=
  (polygonEdges vs).countP (fun e => decide (RayHits p e.1 e.2)) % 2 = 1

/-- `p` is in the ellipse with centre `center` and axis lengths `len`, the first axis turned by the angle with
cosine `c` and sine `s`: along the turned axes the offset `(a, b)` satisfies
`(a / (len.x/2))² + (b / (len.y/2))² ≤ 1`. -/
def InEllipse (center len : Vec K) (c s : K) (p : Vec K) : Prop :=
  ∃ a b, p.x - center.x = a * c - b * s ∧ p.y - center.y = a * s + b * c ∧
    (a / (len.x / 2)) ^ 2 + (b / (len.y / 2)) ^ 2 ≤ 1

end CostMapModel
