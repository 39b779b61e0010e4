import Verif.Spec.Inflation

/-! # Specification vocabulary for the reuse of inflation objects -/

namespace CostMapModel
variable {K : Type} [Field K] [LinearOrder K] [FloorRing K]

/-- What a call of an `Inflate` object was asked for: the radius, the computer, and the resolution of the map. -/
structure Setting (K : Type) where
  radius : K
  computer : K → Cost
  resolution : K

/-- The radius in cells. -/
def Setting.cells (c : Setting K) : Nat := radiusInCells c.radius c.resolution

/-- The states of an `Inflate` object after calls that returned, with the given settings, the newest first, on any maps and layers. -/
inductive After (hyp : Nat → Nat → K) : List (Setting K) → Inflater K → Prop where
  | new : After hyp [] Inflater.new
  | call {cs : List (Setting K)} {o : Inflater K} (h : After hyp cs o) (pop : Inflation.Pop K) (ls ld : String) (radius : K)
      (computer : K → Cost) (m : CostMap K) (log : List Idx) (hres : 0 < m.resolution)
      (hn : radiusInCells radius m.resolution < 2 ^ 32 - 1) {st : Inflation K}
      (hr : Inflation.inflate pop hyp ls ld radius computer ⟨o, m, log⟩ = (.ok (), st)) :
      After hyp (⟨radius, computer, m.resolution⟩ :: cs) st.obj

/-- The setting whose costs a call with setting `c` after calls with the settings `cs` (newest first) works with: that of the first call in the unbroken
series of calls, up to this one, with the same radius in cells. -/
def inForce (c : Setting K) : List (Setting K) → Setting K
  | [] => c
  | d :: ds => if c.cells = d.cells then inForce d ds else c

/-- Two settings give the same costs up to `n` cells away: the same for every other cell, and for the obstacle itself both unknown or both not. -/
def SameCosts (hyp : Nat → Nat → K) (n : Nat) (c d : Setting K) : Prop :=
  (∀ a b : Nat, 0 < a ∨ 0 < b → a * a + b * b ≤ n * n → c.computer (c.resolution * hyp a b) = d.computer (d.resolution * hyp a b)) ∧
  (c.computer (c.resolution * hyp 0 0) = NO_INFORMATION ↔ d.computer (d.resolution * hyp 0 0) = NO_INFORMATION)

end CostMapModel
