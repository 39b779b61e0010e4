import Verif.Model.InflationFloat
import Verif.Spec.Inflation
import Verif.Spec.Rounded

/-! # Specification vocabulary for inflation in floating point -/

namespace CostMapModel
variable {K : Type} [Field K] [LinearOrder K] [FloorRing K]

/-- What is assumed of the `double` version of `std::hypot` on whole numbers: it is not negative, and its square is right up to a
relative error of `2^-50`. (An error of one unit in the last place is a quarter of that.) -/
def HypotDouble (h : Nat → Nat → ℚ) : Prop :=
  ∀ i j : Nat, 0 ≤ h i j ∧ |h i j * h i j - ((i * i + j * j : Nat) : ℚ)| ≤ ((i * i + j * j : Nat) : ℚ) / 2 ^ 50

/-- `rf` has a relative error of at most `2^-24`, as rounding to the nearest `float` has. -/
def FloatPrecision (rf : K → K) : Prop := ∀ x, |rf x - x| ≤ |x| / 2 ^ 24

/-- The cost the inflation computer gives to cell `c` for an obstacle at `o`, when the distance is computed in `float`s. -/
def inflationCostRd (rf : K → K) (hyp : Nat → Nat → K) (computer : K → Cost) (resolution : K) (c o : Idx) : Cost :=
  computer (rf (rf resolution * hyp (c.x - o.x).natAbs (c.y - o.y).natAbs))

/-- The states of an `Inflate` object that was so far called with one computer and one resolution only, on any maps,
layers and radii. -/
inductive UsedRd (rd rf : K → K) (hyp : Nat → Nat → K) (computer : K → Cost) (resolution : K) : Inflater K → Prop where
  | new : UsedRd rd rf hyp computer resolution Inflater.new
  | call {o : Inflater K} (h : UsedRd rd rf hyp computer resolution o) (pop : Inflation.Pop K) (ls ld : String) (radius : K)
      (m : CostMap K) (log : List Idx) (hm : m.resolution = resolution) {st : Inflation K}
      (hr : Inflation.inflateRd rd rf pop hyp ls ld radius computer ⟨o, m, log⟩ = (.ok (), st)) :
      UsedRd rd rf hyp computer resolution st.obj

end CostMapModel
