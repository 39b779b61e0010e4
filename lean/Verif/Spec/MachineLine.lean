import Verif.Spec.Machine
import Verif.Model.MachineLine

/-!
# Specification vocabulary for lines between positions on the machine
-/

namespace CostMapModel
variable {K : Type} [Field K] [LinearOrder K]

/-- The square of `sqrt x` has a relative error of at most `2^-50`. -/
def SqrtClose (sqrt : K → K) : Prop := ∀ x, 0 ≤ x → 0 ≤ sqrt x ∧ |sqrt x ^ 2 - x| ≤ x / 2 ^ 50

/-- Both ends are at most `B` from the axes of the frame and at most `S` from each other, along each axis. -/
structure Ends (S B : K) (a b : Vec K) : Prop where
  ax : |a.x| ≤ B
  ay : |a.y| ≤ B
  bx : |b.x| ≤ B
  b_y : |b.y| ≤ B
  dx : |b.x - a.x| ≤ S
  dy : |b.y - a.y| ≤ S

/-- `p` is at most `δ` from a point of the segment from `a` to `b`, along each axis. -/
def NearSegment (δ : K) (a b p : Vec K) : Prop :=
  ∃ t, 0 ≤ t ∧ t ≤ 1 ∧ |p.x - (a.x + t * (b.x - a.x))| ≤ δ ∧ |p.y - (a.y + t * (b.y - a.y))| ≤ δ

/-- Both ends are at most `2^28` cells from the centre of the map, along each axis. -/
structure Reachable (m : CostMap K) (a b : Vec K) : Prop where
  ax : |a.x - m.position.x| ≤ 2 ^ 28 * m.resolution
  ay : |a.y - m.position.y| ≤ 2 ^ 28 * m.resolution
  bx : |b.x - m.position.x| ≤ 2 ^ 28 * m.resolution
  b_y : |b.y - m.position.y| ≤ 2 ^ 28 * m.resolution

/-- The segment from `a` to `b` is not longer than the precision of its coordinates allows: `S` bounds its length and a cell,
`B` the distance of its ends from the axes of the frame, and the product of `S` and `B` is at most `2^44` square cells. With
cells of 5 centimetres these are, for example, segments of 10 kilometres up to 4000 kilometres from the origin. -/
structure Steppable (m : CostMap K) (S B : K) (a b : Vec K) : Prop where
  ends : Ends S B a b
  cell : m.resolution ≤ S
  le : S ≤ B
  prod : S * B ≤ 2 ^ 44 * m.resolution ^ 2

/-- The positions coincide, or are a quarter of a cell apart along one of the axes. -/
def Apart (m : CostMap K) (a b : Vec K) : Prop :=
  a = b ∨ m.resolution / 4 ≤ |b.x - a.x| ∨ m.resolution / 4 ≤ |b.y - a.y|

/-- `p` is at least `δ` from the border of the map, inside. -/
structure WellInside (δ : K) (m : CostMap K) (p : Vec K) : Prop where
  x : |p.x - m.position.x| ≤ m.length.x / 2 - δ
  y : |p.y - m.position.y| ≤ m.length.y / 2 - δ

/-- The segment from `a` to `b` runs at least an eighth of a cell inside the map for four cells along one of the axes. -/
def Crosses (m : CostMap K) (a b : Vec K) : Prop :=
  ∃ t₀ t₁ : K, 0 ≤ t₀ ∧ t₁ ≤ 1 ∧
    (4 * m.resolution ≤ (t₁ - t₀) * |b.x - a.x| ∨ 4 * m.resolution ≤ (t₁ - t₀) * |b.y - a.y|) ∧
    WellInside (m.resolution / 8) m ⟨a.x + t₀ * (b.x - a.x), a.y + t₀ * (b.y - a.y)⟩ ∧
    WellInside (m.resolution / 8) m ⟨a.x + t₁ * (b.x - a.x), a.y + t₁ * (b.y - a.y)⟩

end CostMapModel
